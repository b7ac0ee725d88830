import Verif.Testdata.Support

/-!
# C54: the package analysis/testdata/src/recursion

Generated by `scripts/conformance/testdata.py` from recursion.go.  Numbers of syntax nodes, objects and types are arbitrary.  The tables hold
what `go/parser` and `go/types` say about the package.
-/

set_option maxRecDepth 100000
set_option linter.all false

namespace Serum.Testdata.recursion
open Serum Serum.Testdata

def s0 : GoString := b!"SimpleRecursion"
def s1 : GoString := b!"false"
def s2 : GoString := b!"InnerRecursion"
def s3 : GoString := b!"innerRecursion"
def s4 : GoString := b!"IndirectRecursion"
def s5 : GoString := b!"part1"
def s6 : GoString := b!"part2"
def s7 : GoString := b!"IndirectInnerRecursion"
def s8 : GoString := b!"inner1"
def s9 : GoString := b!"inner2"
def s10 : GoString := b!"inner3"
def s11 : GoString := b!"AdvancedRecursionA"
def s12 : GoString := b!"advancedRecursionC"
def s13 : GoString := b!"AdvancedRecursionB"
def s14 : GoString := b!"advancedRecursionD"
def s15 : GoString := b!"true"
def s16 : GoString := b!"advancedRecursionE"
def s17 : GoString := b!"advancedRecursionF"
def s18 : GoString := b!"advancedRecursionG"
def s19 : GoString := b!"AdvancedRecursionH"
def s20 : GoString := b!"SplitMergeA"
def s21 : GoString := b!"splitMergeB"
def s22 : GoString := b!"splitMergeC"
def s23 : GoString := b!"splitMergeD"
def s24 : GoString := b!"splitMergeE"
def s25 : GoString := b!"Code"
def s26 : GoString := b!"e"
def s27 : GoString := b!"TheCode"
def s28 : GoString := b!"Message"
def s29 : GoString := b!"Details"
def s30 : GoString := b!"nil"
def s31 : GoString := b!"Cause"
def s32 : GoString := b!"Error"
def s33 : GoString := b!"recursion-error"
def s34 : GoString := b!"recursion-part1-error"
def s35 : GoString := b!"recursion-part2-error"
def s36 : GoString := b!"recursion-inner1-error"
def s37 : GoString := b!"recursion-inner2-error"
def s38 : GoString := b!"recursion-inner3-error"
def s39 : GoString := b!"advanced-a-error"
def s40 : GoString := b!"advanced-b-error"
def s41 : GoString := b!"advanced-c-error"
def s42 : GoString := b!"advanced-d-error"
def s43 : GoString := b!"advanced-e-error"
def s44 : GoString := b!"advanced-f-error"
def s45 : GoString := b!"advanced-g-error"
def s46 : GoString := b!"advanced-h-error"
def s47 : GoString := b!"splitmerge-a-error"
def s48 : GoString := b!"splitmerge-b-error"
def s49 : GoString := b!"splitmerge-c-error"
def s50 : GoString := b!"splitmerge-d-error"
def s51 : GoString := b!"splitmerge-e-error"
def s52 : GoString := b!"// want InnerRecursion:\"ErrorCodes: recursion-error\""
def s53 : GoString := b!"// want IndirectInnerRecursion:\"ErrorCodes: recursion-inner1-error recursion-inner2-error recursion-inner3-error\""
def s54 : GoString := b!"// SimpleRecursion always returns an error,"
def s55 : GoString := b!"// and looks to the compiler like it might do recursive calls on itself."
def s56 : GoString := b!"//"
def s57 : GoString := b!"// Errors:"
def s58 : GoString := b!"//    - recursion-error -- is always returned"
def s59 : GoString := b!"// InnerRecursion always returns an error,"
def s60 : GoString := b!"// and calls a local function, that looks recursive to the compiler."
def s61 : GoString := b!"// IndirectRecursion always returns an error,"
def s62 : GoString := b!"// and looks to the compiler like it might do an indirect recursion involving three functions."
def s63 : GoString := b!"//    - recursion-error       -- is always returned"
def s64 : GoString := b!"//    - recursion-part1-error --"
def s65 : GoString := b!"//    - recursion-part2-error --"
def s66 : GoString := b!"// IndirectInnerRecursion always returns an error,"
def s67 : GoString := b!"// and calls a local function, that looks to the compiler"
def s68 : GoString := b!"// like it does indirect recursive calls involving three functions."
def s69 : GoString := b!"//    - recursion-inner1-error -- is always returned"
def s70 : GoString := b!"//    - recursion-inner2-error --"
def s71 : GoString := b!"//    - recursion-inner3-error --"
def s72 : GoString := b!"//    - advanced-a-error -- is always returned"
def s73 : GoString := b!"//    - advanced-c-error --"
def s74 : GoString := b!"//    - advanced-d-error --"
def s75 : GoString := b!"//    - advanced-e-error --"
def s76 : GoString := b!"//    - advanced-f-error --"
def s77 : GoString := b!"//    - advanced-g-error --"
def s78 : GoString := b!"//    - advanced-b-error -- is always returned"
def s79 : GoString := b!"//    - advanced-h-error -- is always returned"
def s80 : GoString := b!"//    - splitmerge-a-error --"
def s81 : GoString := b!"//    - splitmerge-b-error --"
def s82 : GoString := b!"//    - splitmerge-c-error --"
def s83 : GoString := b!"//    - splitmerge-d-error --"
def s84 : GoString := b!"//    - splitmerge-e-error --"
def s85 : GoString := b!"string"
/-- recursion.go:9: `func SimpleRecursion` -/
def f0 : FuncDef := ⟨13353, some ⟨13334, s0, (some 0)⟩, ⟨[], (some [⟨[], 13336⟩]), 222⟩, some [.other 13346 [.ident ⟨13340, s1, none⟩, .other 13345
  [.ret 13344 [.call 13343 (.ident ⟨13342, s0, (some 0)⟩) []]]], .ret 13351 [.unary 13350 true (.compositeLit 13349 [.basicLit 13348])]], 228, 361⟩
/-- recursion.go:22: `func InnerRecursion` -/
def f1 : FuncDef := ⟨13364, some ⟨13354, s2, (some 2)⟩, ⟨[], (some [⟨[], 13356⟩]), 560⟩, some [.ret 13362 [.call 13361 (.ident ⟨13360, s3, (some
  3)⟩) []]], 566, 647⟩
/-- recursion.go:26: `func innerRecursion` -/
def f2 : FuncDef := ⟨13384, some ⟨13365, s3, (some 3)⟩, ⟨[], (some [⟨[], 13367⟩]), 671⟩, some [.other 13377 [.ident ⟨13371, s1, none⟩, .other 13376
  [.ret 13375 [.call 13374 (.ident ⟨13373, s3, (some 3)⟩) []]]], .ret 13382 [.unary 13381 true (.compositeLit 13380 [.basicLit 13379])]], 677, 755⟩
/-- recursion.go:41: `func IndirectRecursion` -/
def f3 : FuncDef := ⟨13404, some ⟨13385, s4, (some 4)⟩, ⟨[], (some [⟨[], 13387⟩]), 1058⟩, some [.other 13397 [.ident ⟨13391, s1, none⟩, .other 13396
  [.ret 13395 [.call 13394 (.ident ⟨13393, s5, (some 5)⟩) []]]], .ret 13402 [.unary 13401 true (.compositeLit 13400 [.basicLit 13399])]], 1064,
  1233⟩
/-- recursion.go:48: `func part1` -/
def f4 : FuncDef := ⟨13424, some ⟨13405, s5, (some 5)⟩, ⟨[], (some [⟨[], 13407⟩]), 1248⟩, some [.other 13417 [.ident ⟨13411, s1, none⟩, .other 13416
  [.ret 13415 [.call 13414 (.ident ⟨13413, s6, (some 6)⟩) []]]], .ret 13422 [.unary 13421 true (.compositeLit 13420 [.basicLit 13419])]], 1254,
  1329⟩
/-- recursion.go:55: `func part2` -/
def f5 : FuncDef := ⟨13444, some ⟨13425, s6, (some 6)⟩, ⟨[], (some [⟨[], 13427⟩]), 1344⟩, some [.other 13437 [.ident ⟨13431, s1, none⟩, .other 13436
  [.ret 13435 [.call 13434 (.ident ⟨13433, s4, (some 4)⟩) []]]], .ret 13442 [.unary 13441 true (.compositeLit 13440 [.basicLit 13439])]], 1350,
  1437⟩
/-- recursion.go:71: `func IndirectInnerRecursion` -/
def f6 : FuncDef := ⟨13455, some ⟨13445, s7, (some 7)⟩, ⟨[], (some [⟨[], 13447⟩]), 1784⟩, some [.ret 13453 [.call 13452 (.ident ⟨13451, s8, (some
  8)⟩) []]], 1790, 1924⟩
/-- recursion.go:75: `func inner1` -/
def f7 : FuncDef := ⟨13475, some ⟨13456, s8, (some 8)⟩, ⟨[], (some [⟨[], 13458⟩]), 1940⟩, some [.other 13468 [.ident ⟨13462, s1, none⟩, .other 13467
  [.ret 13466 [.call 13465 (.ident ⟨13464, s9, (some 9)⟩) []]]], .ret 13473 [.unary 13472 true (.compositeLit 13471 [.basicLit 13470])]], 1946,
  2023⟩
/-- recursion.go:82: `func inner2` -/
def f8 : FuncDef := ⟨13495, some ⟨13476, s9, (some 9)⟩, ⟨[], (some [⟨[], 13478⟩]), 2039⟩, some [.other 13488 [.ident ⟨13482, s1, none⟩, .other 13487
  [.ret 13486 [.call 13485 (.ident ⟨13484, s10, (some 10)⟩) []]]], .ret 13493 [.unary 13492 true (.compositeLit 13491 [.basicLit 13490])]], 2045,
  2122⟩
/-- recursion.go:89: `func inner3` -/
def f9 : FuncDef := ⟨13515, some ⟨13496, s10, (some 10)⟩, ⟨[], (some [⟨[], 13498⟩]), 2138⟩, some [.other 13508 [.ident ⟨13502, s1, none⟩, .other
  13507 [.ret 13506 [.call 13505 (.ident ⟨13504, s8, (some 8)⟩) []]]], .ret 13513 [.unary 13512 true (.compositeLit 13511 [.basicLit 13510])]],
  2144, 2221⟩
/-- recursion.go:104: `func AdvancedRecursionA` -/
def f10 : FuncDef := ⟨13535, some ⟨13516, s11, (some 11)⟩, ⟨[], (some [⟨[], 13518⟩]), 2450⟩, some [.other 13528 [.ident ⟨13522, s1, none⟩, .other
  13527 [.ret 13526 [.call 13525 (.ident ⟨13524, s12, (some 12)⟩) []]]], .ret 13533 [.unary 13532 true (.compositeLit 13531 [.basicLit 13530])]],
  2456, 2682⟩
/-- recursion.go:119: `func AdvancedRecursionB` -/
def f11 : FuncDef := ⟨13555, some ⟨13536, s13, (some 13)⟩, ⟨[], (some [⟨[], 13538⟩]), 2911⟩, some [.other 13548 [.ident ⟨13542, s1, none⟩, .other
  13547 [.ret 13546 [.call 13545 (.ident ⟨13544, s14, (some 14)⟩) []]]], .ret 13553 [.unary 13552 true (.compositeLit 13551 [.basicLit 13550])]],
  2917, 3143⟩
/-- recursion.go:126: `func advancedRecursionC` -/
def f12 : FuncDef := ⟨13585, some ⟨13556, s12, (some 12)⟩, ⟨[], (some [⟨[], 13558⟩]), 3171⟩, some [.other 13578 [.other 13577 [.caseClause 13566
  [.ident ⟨13562, s15, none⟩] [.ret 13565 [.call 13564 (.ident ⟨13563, s12, (some 12)⟩) []]], .caseClause 13571 [.ident ⟨13567, s15, none⟩] [.ret
  13570 [.call 13569 (.ident ⟨13568, s14, (some 14)⟩) []]], .caseClause 13576 [.ident ⟨13572, s15, none⟩] [.ret 13575 [.call 13574 (.ident ⟨13573,
  s16, (some 15)⟩) []]]]], .ret 13583 [.unary 13582 true (.compositeLit 13581 [.basicLit 13580])]], 3177, 3354⟩
/-- recursion.go:138: `func advancedRecursionD` -/
def f13 : FuncDef := ⟨13605, some ⟨13586, s14, (some 14)⟩, ⟨[], (some [⟨[], 13588⟩]), 3382⟩, some [.other 13598 [.ident ⟨13592, s1, none⟩, .other
  13597 [.ret 13596 [.call 13595 (.ident ⟨13594, s12, (some 12)⟩) []]]], .ret 13603 [.unary 13602 true (.compositeLit 13601 [.basicLit 13600])]],
  3388, 3471⟩
/-- recursion.go:145: `func advancedRecursionE` -/
def f14 : FuncDef := ⟨13625, some ⟨13606, s16, (some 15)⟩, ⟨[], (some [⟨[], 13608⟩]), 3499⟩, some [.other 13618 [.ident ⟨13612, s1, none⟩, .other
  13617 [.ret 13616 [.call 13615 (.ident ⟨13614, s17, (some 16)⟩) []]]], .ret 13623 [.unary 13622 true (.compositeLit 13621 [.basicLit 13620])]],
  3505, 3588⟩
/-- recursion.go:152: `func advancedRecursionF` -/
def f15 : FuncDef := ⟨13645, some ⟨13626, s17, (some 16)⟩, ⟨[], (some [⟨[], 13628⟩]), 3616⟩, some [.other 13638 [.ident ⟨13632, s1, none⟩, .other
  13637 [.ret 13636 [.call 13635 (.ident ⟨13634, s18, (some 17)⟩) []]]], .ret 13643 [.unary 13642 true (.compositeLit 13641 [.basicLit 13640])]],
  3622, 3705⟩
/-- recursion.go:159: `func advancedRecursionG` -/
def f16 : FuncDef := ⟨13665, some ⟨13646, s18, (some 17)⟩, ⟨[], (some [⟨[], 13648⟩]), 3733⟩, some [.other 13658 [.ident ⟨13652, s1, none⟩, .other
  13657 [.ret 13656 [.call 13655 (.ident ⟨13654, s16, (some 15)⟩) []]]], .ret 13663 [.unary 13662 true (.compositeLit 13661 [.basicLit 13660])]],
  3739, 3822⟩
/-- recursion.go:172: `func AdvancedRecursionH` -/
def f17 : FuncDef := ⟨13685, some ⟨13666, s19, (some 18)⟩, ⟨[], (some [⟨[], 13668⟩]), 3995⟩, some [.other 13678 [.ident ⟨13672, s1, none⟩, .other
  13677 [.ret 13676 [.call 13675 (.ident ⟨13674, s18, (some 17)⟩) []]]], .ret 13683 [.unary 13682 true (.compositeLit 13681 [.basicLit 13680])]],
  4001, 4193⟩
/-- recursion.go:186: `func SplitMergeA` -/
def f18 : FuncDef := ⟨13710, some ⟨13686, s20, (some 19)⟩, ⟨[], (some [⟨[], 13688⟩]), 4378⟩, some [.other 13703 [.other 13702 [.caseClause 13696
  [.ident ⟨13692, s15, none⟩] [.ret 13695 [.call 13694 (.ident ⟨13693, s21, (some 20)⟩) []]], .caseClause 13701 [.ident ⟨13697, s15, none⟩] [.ret
  13700 [.call 13699 (.ident ⟨13698, s22, (some 21)⟩) []]]]], .ret 13708 [.unary 13707 true (.compositeLit 13706 [.basicLit 13705])]], 4384, 4636⟩
/-- recursion.go:196: `func splitMergeB` -/
def f19 : FuncDef := ⟨13730, some ⟨13711, s21, (some 20)⟩, ⟨[], (some [⟨[], 13713⟩]), 4657⟩, some [.other 13723 [.ident ⟨13717, s1, none⟩, .other
  13722 [.ret 13721 [.call 13720 (.ident ⟨13719, s23, (some 22)⟩) []]]], .ret 13728 [.unary 13727 true (.compositeLit 13726 [.basicLit 13725])]],
  4663, 4741⟩
/-- recursion.go:203: `func splitMergeC` -/
def f20 : FuncDef := ⟨13750, some ⟨13731, s22, (some 21)⟩, ⟨[], (some [⟨[], 13733⟩]), 4762⟩, some [.other 13743 [.ident ⟨13737, s1, none⟩, .other
  13742 [.ret 13741 [.call 13740 (.ident ⟨13739, s23, (some 22)⟩) []]]], .ret 13748 [.unary 13747 true (.compositeLit 13746 [.basicLit 13745])]],
  4768, 4846⟩
/-- recursion.go:210: `func splitMergeD` -/
def f21 : FuncDef := ⟨13770, some ⟨13751, s23, (some 22)⟩, ⟨[], (some [⟨[], 13753⟩]), 4867⟩, some [.other 13763 [.ident ⟨13757, s1, none⟩, .other
  13762 [.ret 13761 [.call 13760 (.ident ⟨13759, s24, (some 23)⟩) []]]], .ret 13768 [.unary 13767 true (.compositeLit 13766 [.basicLit 13765])]],
  4873, 4951⟩
/-- recursion.go:217: `func splitMergeE` -/
def f22 : FuncDef := ⟨13790, some ⟨13771, s24, (some 23)⟩, ⟨[], (some [⟨[], 13773⟩]), 4972⟩, some [.other 13783 [.ident ⟨13777, s1, none⟩, .other
  13782 [.ret 13781 [.call 13780 (.ident ⟨13779, s23, (some 22)⟩) []]]], .ret 13788 [.unary 13787 true (.compositeLit 13786 [.basicLit 13785])]],
  4978, 5056⟩
/-- recursion.go:228: `func Code` -/
def f23 : FuncDef := ⟨13815, some ⟨13804, s25, none⟩, ⟨[], (some [⟨[], 13806⟩]), 5190⟩, some [.ret 13813 [.selector 13812 (.ident ⟨13810, s26, (some
  25)⟩) ⟨13811, s27, none⟩]], 5211, 5231⟩
/-- recursion.go:229: `func Message` -/
def f24 : FuncDef := ⟨13832, some ⟨13821, s28, none⟩, ⟨[], (some [⟨[], 13823⟩]), 5258⟩, some [.ret 13830 [.selector 13829 (.ident ⟨13827, s26, (some
  26)⟩) ⟨13828, s27, none⟩]], 5276, 5296⟩
/-- recursion.go:230: `func Details` -/
def f25 : FuncDef := ⟨13849, some ⟨13838, s29, none⟩, ⟨[], (some [⟨[], 13842⟩]), 5323⟩, some [.ret 13847 [.ident ⟨13846, s30, none⟩]], 5341, 5355⟩
/-- recursion.go:231: `func Cause` -/
def f26 : FuncDef := ⟨13864, some ⟨13855, s31, none⟩, ⟨[], (some [⟨[], 13857⟩]), 5380⟩, some [.ret 13862 [.ident ⟨13861, s30, none⟩]], 5400, 5414⟩
/-- recursion.go:232: `func Error` -/
def f27 : FuncDef := ⟨13882, some ⟨13870, s32, none⟩, ⟨[], (some [⟨[], 13872⟩]), 5439⟩, some [.ret 13880 [.call 13879 (.selector 13878 (.ident
  ⟨13876, s26, (some 29)⟩) ⟨13877, s28, none⟩) []]], 5459, 5481⟩
/-- The objects of go/ast, in the order of their numbers. -/
def objects : List ObjInfo := [
  ⟨.fun_, 204, (.funcDecl 0)⟩,
  ⟨.typ, 5063, .typeSpec⟩,
  ⟨.fun_, 543, (.funcDecl 1)⟩,
  ⟨.fun_, 654, (.funcDecl 2)⟩,
  ⟨.fun_, 1038, (.funcDecl 3)⟩,
  ⟨.fun_, 1240, (.funcDecl 4)⟩,
  ⟨.fun_, 1336, (.funcDecl 5)⟩,
  ⟨.fun_, 1759, (.funcDecl 6)⟩,
  ⟨.fun_, 1931, (.funcDecl 7)⟩,
  ⟨.fun_, 2030, (.funcDecl 8)⟩,
  ⟨.fun_, 2129, (.funcDecl 9)⟩,
  ⟨.fun_, 2429, (.funcDecl 10)⟩,
  ⟨.fun_, 3150, (.funcDecl 12)⟩,
  ⟨.fun_, 2890, (.funcDecl 11)⟩,
  ⟨.fun_, 3361, (.funcDecl 13)⟩,
  ⟨.fun_, 3478, (.funcDecl 14)⟩,
  ⟨.fun_, 3595, (.funcDecl 15)⟩,
  ⟨.fun_, 3712, (.funcDecl 16)⟩,
  ⟨.fun_, 3974, (.funcDecl 17)⟩,
  ⟨.fun_, 4364, (.funcDecl 18)⟩,
  ⟨.fun_, 4643, (.funcDecl 19)⟩,
  ⟨.fun_, 4748, (.funcDecl 20)⟩,
  ⟨.fun_, 4853, (.funcDecl 21)⟩,
  ⟨.fun_, 4958, (.funcDecl 22)⟩,
  ⟨.var, 5149, .other⟩,
  ⟨.var, 5173, .other⟩,
  ⟨.var, 5238, .other⟩,
  ⟨.var, 5303, .other⟩,
  ⟨.var, 5362, .other⟩,
  ⟨.var, 5421, .other⟩]
/-- Types of expressions (`Info.Types`, `Info.Defs`, `Info.Uses`). -/
def typeTable : Tree GoType := (.node (.node (.node (.node (.node (.node (.node (.node (.node Tree.nil 13334 (.signature 6) Tree.nil) 13336 (.named
  19) Tree.nil) 13339 (.signature 6) (.node Tree.nil 13340 (.other 10) Tree.nil)) 13342 (.signature 6) (.node (.node Tree.nil 13343 (.named 19)
  Tree.nil) 13347 (.named 1306) (.node Tree.nil 13348 (.string) Tree.nil))) 13349 (.named 1306) (.node (.node (.node (.node Tree.nil 13350 (.pointer
  (.named 1306)) Tree.nil) 13354 (.signature 6) Tree.nil) 13356 (.named 19) (.node Tree.nil 13359 (.signature 6) Tree.nil)) 13360 (.signature 6)
  (.node (.node Tree.nil 13361 (.named 19) Tree.nil) 13365 (.signature 6) (.node Tree.nil 13367 (.named 19) Tree.nil)))) 13370 (.signature 6) (.node
  (.node (.node (.node (.node Tree.nil 13371 (.other 10) Tree.nil) 13373 (.signature 6) Tree.nil) 13374 (.named 19) (.node Tree.nil 13378 (.named
  1306) Tree.nil)) 13379 (.string) (.node (.node Tree.nil 13380 (.named 1306) Tree.nil) 13381 (.pointer (.named 1306)) (.node Tree.nil 13385
  (.signature 6) Tree.nil))) 13387 (.named 19) (.node (.node (.node Tree.nil 13390 (.signature 6) Tree.nil) 13391 (.other 10) (.node Tree.nil 13393
  (.signature 6) Tree.nil)) 13394 (.named 19) (.node (.node Tree.nil 13398 (.named 1306) Tree.nil) 13399 (.string) (.node Tree.nil 13400 (.named
  1306) Tree.nil))))) 13401 (.pointer (.named 1306)) (.node (.node (.node (.node (.node (.node Tree.nil 13405 (.signature 6) Tree.nil) 13407 (.named
  19) Tree.nil) 13410 (.signature 6) (.node Tree.nil 13411 (.other 10) Tree.nil)) 13413 (.signature 6) (.node (.node Tree.nil 13414 (.named 19)
  Tree.nil) 13418 (.named 1306) (.node Tree.nil 13419 (.string) Tree.nil))) 13420 (.named 1306) (.node (.node (.node (.node Tree.nil 13421 (.pointer
  (.named 1306)) Tree.nil) 13425 (.signature 6) Tree.nil) 13427 (.named 19) (.node Tree.nil 13430 (.signature 6) Tree.nil)) 13431 (.other 10) (.node
  (.node Tree.nil 13433 (.signature 6) Tree.nil) 13434 (.named 19) (.node Tree.nil 13438 (.named 1306) Tree.nil)))) 13439 (.string) (.node (.node
  (.node (.node (.node Tree.nil 13440 (.named 1306) Tree.nil) 13441 (.pointer (.named 1306)) Tree.nil) 13445 (.signature 6) (.node Tree.nil 13447
  (.named 19) Tree.nil)) 13450 (.signature 6) (.node (.node Tree.nil 13451 (.signature 6) Tree.nil) 13452 (.named 19) (.node Tree.nil 13456
  (.signature 6) Tree.nil))) 13458 (.named 19) (.node (.node (.node Tree.nil 13461 (.signature 6) Tree.nil) 13462 (.other 10) (.node Tree.nil 13464
  (.signature 6) Tree.nil)) 13465 (.named 19) (.node (.node Tree.nil 13469 (.named 1306) Tree.nil) 13470 (.string) (.node Tree.nil 13471 (.named
  1306) Tree.nil)))))) 13472 (.pointer (.named 1306)) (.node (.node (.node (.node (.node (.node (.node Tree.nil 13476 (.signature 6) Tree.nil) 13478
  (.named 19) Tree.nil) 13481 (.signature 6) (.node Tree.nil 13482 (.other 10) Tree.nil)) 13484 (.signature 6) (.node (.node Tree.nil 13485 (.named
  19) Tree.nil) 13489 (.named 1306) (.node Tree.nil 13490 (.string) Tree.nil))) 13491 (.named 1306) (.node (.node (.node (.node Tree.nil 13492
  (.pointer (.named 1306)) Tree.nil) 13496 (.signature 6) Tree.nil) 13498 (.named 19) (.node Tree.nil 13501 (.signature 6) Tree.nil)) 13502 (.other
  10) (.node (.node Tree.nil 13504 (.signature 6) Tree.nil) 13505 (.named 19) (.node Tree.nil 13509 (.named 1306) Tree.nil)))) 13510 (.string)
  (.node (.node (.node (.node (.node Tree.nil 13511 (.named 1306) Tree.nil) 13512 (.pointer (.named 1306)) Tree.nil) 13516 (.signature 6) (.node
  Tree.nil 13518 (.named 19) Tree.nil)) 13521 (.signature 6) (.node (.node Tree.nil 13522 (.other 10) Tree.nil) 13524 (.signature 6) (.node Tree.nil
  13525 (.named 19) Tree.nil))) 13529 (.named 1306) (.node (.node (.node Tree.nil 13530 (.string) Tree.nil) 13531 (.named 1306) (.node Tree.nil
  13532 (.pointer (.named 1306)) Tree.nil)) 13536 (.signature 6) (.node (.node Tree.nil 13538 (.named 19) Tree.nil) 13541 (.signature 6) (.node
  Tree.nil 13542 (.other 10) Tree.nil))))) 13544 (.signature 6) (.node (.node (.node (.node (.node (.node Tree.nil 13545 (.named 19) Tree.nil) 13549
  (.named 1306) Tree.nil) 13550 (.string) (.node Tree.nil 13551 (.named 1306) Tree.nil)) 13552 (.pointer (.named 1306)) (.node (.node Tree.nil 13556
  (.signature 6) Tree.nil) 13558 (.named 19) (.node Tree.nil 13561 (.signature 6) Tree.nil))) 13562 (.other 10) (.node (.node (.node Tree.nil 13563
  (.signature 6) Tree.nil) 13564 (.named 19) (.node Tree.nil 13567 (.other 10) Tree.nil)) 13568 (.signature 6) (.node (.node Tree.nil 13569 (.named
  19) Tree.nil) 13572 (.other 10) (.node Tree.nil 13573 (.signature 6) Tree.nil)))) 13574 (.named 19) (.node (.node (.node (.node (.node Tree.nil
  13579 (.named 1306) Tree.nil) 13580 (.string) Tree.nil) 13581 (.named 1306) (.node Tree.nil 13582 (.pointer (.named 1306)) Tree.nil)) 13586
  (.signature 6) (.node (.node Tree.nil 13588 (.named 19) Tree.nil) 13591 (.signature 6) (.node Tree.nil 13592 (.other 10) Tree.nil))) 13594
  (.signature 6) (.node (.node (.node Tree.nil 13595 (.named 19) Tree.nil) 13599 (.named 1306) (.node Tree.nil 13600 (.string) Tree.nil)) 13601
  (.named 1306) (.node (.node Tree.nil 13602 (.pointer (.named 1306)) Tree.nil) 13606 (.signature 6) (.node Tree.nil 13608 (.named 19)
  Tree.nil))))))) 13611 (.signature 6) (.node (.node (.node (.node (.node (.node (.node (.node Tree.nil 13612 (.other 10) Tree.nil) 13614
  (.signature 6) Tree.nil) 13615 (.named 19) (.node Tree.nil 13619 (.named 1306) Tree.nil)) 13620 (.string) (.node (.node Tree.nil 13621 (.named
  1306) Tree.nil) 13622 (.pointer (.named 1306)) (.node Tree.nil 13626 (.signature 6) Tree.nil))) 13628 (.named 19) (.node (.node (.node (.node
  Tree.nil 13631 (.signature 6) Tree.nil) 13632 (.other 10) Tree.nil) 13634 (.signature 6) (.node Tree.nil 13635 (.named 19) Tree.nil)) 13639
  (.named 1306) (.node (.node Tree.nil 13640 (.string) Tree.nil) 13641 (.named 1306) (.node Tree.nil 13642 (.pointer (.named 1306)) Tree.nil))))
  13646 (.signature 6) (.node (.node (.node (.node (.node Tree.nil 13648 (.named 19) Tree.nil) 13651 (.signature 6) Tree.nil) 13652 (.other 10)
  (.node Tree.nil 13654 (.signature 6) Tree.nil)) 13655 (.named 19) (.node (.node Tree.nil 13659 (.named 1306) Tree.nil) 13660 (.string) (.node
  Tree.nil 13661 (.named 1306) Tree.nil))) 13662 (.pointer (.named 1306)) (.node (.node (.node Tree.nil 13666 (.signature 6) Tree.nil) 13668 (.named
  19) (.node Tree.nil 13671 (.signature 6) Tree.nil)) 13672 (.other 10) (.node (.node Tree.nil 13674 (.signature 6) Tree.nil) 13675 (.named 19)
  (.node Tree.nil 13679 (.named 1306) Tree.nil))))) 13680 (.string) (.node (.node (.node (.node (.node (.node Tree.nil 13681 (.named 1306) Tree.nil)
  13682 (.pointer (.named 1306)) Tree.nil) 13686 (.signature 6) (.node Tree.nil 13688 (.named 19) Tree.nil)) 13691 (.signature 6) (.node (.node
  Tree.nil 13692 (.other 10) Tree.nil) 13693 (.signature 6) (.node Tree.nil 13694 (.named 19) Tree.nil))) 13697 (.other 10) (.node (.node (.node
  (.node Tree.nil 13698 (.signature 6) Tree.nil) 13699 (.named 19) Tree.nil) 13704 (.named 1306) (.node Tree.nil 13705 (.string) Tree.nil)) 13706
  (.named 1306) (.node (.node Tree.nil 13707 (.pointer (.named 1306)) Tree.nil) 13711 (.signature 6) (.node Tree.nil 13713 (.named 19) Tree.nil))))
  13716 (.signature 6) (.node (.node (.node (.node (.node Tree.nil 13717 (.other 10) Tree.nil) 13719 (.signature 6) Tree.nil) 13720 (.named 19)
  (.node Tree.nil 13724 (.named 1306) Tree.nil)) 13725 (.string) (.node (.node Tree.nil 13726 (.named 1306) Tree.nil) 13727 (.pointer (.named 1306))
  (.node Tree.nil 13731 (.signature 6) Tree.nil))) 13733 (.named 19) (.node (.node (.node Tree.nil 13736 (.signature 6) Tree.nil) 13737 (.other 10)
  (.node Tree.nil 13739 (.signature 6) Tree.nil)) 13740 (.named 19) (.node (.node Tree.nil 13744 (.named 1306) Tree.nil) 13745 (.string) (.node
  Tree.nil 13746 (.named 1306) Tree.nil)))))) 13747 (.pointer (.named 1306)) (.node (.node (.node (.node (.node (.node (.node Tree.nil 13751
  (.signature 6) Tree.nil) 13753 (.named 19) Tree.nil) 13756 (.signature 6) (.node Tree.nil 13757 (.other 10) Tree.nil)) 13759 (.signature 6) (.node
  (.node Tree.nil 13760 (.named 19) Tree.nil) 13764 (.named 1306) (.node Tree.nil 13765 (.string) Tree.nil))) 13766 (.named 1306) (.node (.node
  (.node (.node Tree.nil 13767 (.pointer (.named 1306)) Tree.nil) 13771 (.signature 6) Tree.nil) 13773 (.named 19) (.node Tree.nil 13776 (.signature
  6) Tree.nil)) 13777 (.other 10) (.node (.node Tree.nil 13779 (.signature 6) Tree.nil) 13780 (.named 19) (.node Tree.nil 13784 (.named 1306)
  Tree.nil)))) 13785 (.string) (.node (.node (.node (.node (.node Tree.nil 13786 (.named 1306) Tree.nil) 13787 (.pointer (.named 1306)) Tree.nil)
  13791 (.named 1306) (.node Tree.nil 13792 (.string) Tree.nil)) 13793 (.string) (.node (.node Tree.nil 13796 (.struct 1) Tree.nil) 13799 (.pointer
  (.named 1306)) (.node Tree.nil 13800 (.named 1306) Tree.nil))) 13801 (.pointer (.named 1306)) (.node (.node (.node Tree.nil 13804 (.signature 11)
  Tree.nil) 13806 (.string) (.node Tree.nil 13809 (.signature 11) Tree.nil)) 13810 (.pointer (.named 1306)) (.node (.node Tree.nil 13811 (.string)
  Tree.nil) 13812 (.string) (.node Tree.nil 13816 (.pointer (.named 1306)) Tree.nil))))) 13817 (.named 1306) (.node (.node (.node (.node (.node
  (.node Tree.nil 13818 (.pointer (.named 1306)) Tree.nil) 13821 (.signature 11) Tree.nil) 13823 (.string) (.node Tree.nil 13826 (.signature 11)
  Tree.nil)) 13827 (.pointer (.named 1306)) (.node (.node Tree.nil 13828 (.string) Tree.nil) 13829 (.string) (.node Tree.nil 13833 (.pointer (.named
  1306)) Tree.nil))) 13834 (.named 1306) (.node (.node (.node Tree.nil 13835 (.pointer (.named 1306)) Tree.nil) 13838 (.signature 23) (.node
  Tree.nil 13840 (.string) Tree.nil)) 13841 (.string) (.node (.node Tree.nil 13842 (.map (.string) (.string)) Tree.nil) 13845 (.signature 23) (.node
  Tree.nil 13846 (.untypedNil) Tree.nil)))) 13850 (.pointer (.named 1306)) (.node (.node (.node (.node (.node Tree.nil 13851 (.named 1306) Tree.nil)
  13852 (.pointer (.named 1306)) Tree.nil) 13855 (.signature 6) (.node Tree.nil 13857 (.named 19) Tree.nil)) 13860 (.signature 6) (.node (.node
  Tree.nil 13861 (.untypedNil) Tree.nil) 13865 (.pointer (.named 1306)) (.node Tree.nil 13866 (.named 1306) Tree.nil))) 13867 (.pointer (.named
  1306)) (.node (.node (.node Tree.nil 13870 (.signature 11) Tree.nil) 13872 (.string) (.node Tree.nil 13875 (.signature 11) Tree.nil)) 13876
  (.pointer (.named 1306)) (.node (.node Tree.nil 13877 (.signature 11) Tree.nil) 13878 (.signature 11) (.node Tree.nil 13879 (.string)
  Tree.nil))))))))
/-- Constant values of expressions. -/
def valueTable : Tree Const := (.node (.node (.node (.node (.node (.node Tree.nil 13340 (.other) Tree.nil) 13348 (.str s33) Tree.nil) 13371 (.other)
  (.node (.node Tree.nil 13379 (.str s33) Tree.nil) 13391 (.other) Tree.nil)) 13399 (.str s33) (.node (.node (.node Tree.nil 13411 (.other)
  Tree.nil) 13419 (.str s34) Tree.nil) 13431 (.other) (.node (.node Tree.nil 13439 (.str s35) Tree.nil) 13462 (.other) Tree.nil))) 13470 (.str s36)
  (.node (.node (.node (.node Tree.nil 13482 (.other) Tree.nil) 13490 (.str s37) Tree.nil) 13502 (.other) (.node (.node Tree.nil 13510 (.str s38)
  Tree.nil) 13522 (.other) Tree.nil)) 13530 (.str s39) (.node (.node (.node Tree.nil 13542 (.other) Tree.nil) 13550 (.str s40) Tree.nil) 13562
  (.other) (.node Tree.nil 13567 (.other) Tree.nil)))) 13572 (.other) (.node (.node (.node (.node (.node Tree.nil 13580 (.str s41) Tree.nil) 13592
  (.other) Tree.nil) 13600 (.str s42) (.node (.node Tree.nil 13612 (.other) Tree.nil) 13620 (.str s43) Tree.nil)) 13632 (.other) (.node (.node
  (.node Tree.nil 13640 (.str s44) Tree.nil) 13652 (.other) Tree.nil) 13660 (.str s45) (.node (.node Tree.nil 13672 (.other) Tree.nil) 13680 (.str
  s46) Tree.nil))) 13692 (.other) (.node (.node (.node (.node Tree.nil 13697 (.other) Tree.nil) 13705 (.str s47) Tree.nil) 13717 (.other) (.node
  (.node Tree.nil 13725 (.str s48) Tree.nil) 13737 (.other) Tree.nil)) 13745 (.str s49) (.node (.node (.node Tree.nil 13757 (.other) Tree.nil) 13765
  (.str s50) Tree.nil) 13777 (.other) (.node Tree.nil 13785 (.str s51) Tree.nil)))))
/-- `typeutil.Callee` of call expressions. -/
def calleeTable : Tree Nat := (.node (.node (.node (.node (.node Tree.nil 13343 (1283) Tree.nil) 13361 (1285) (.node Tree.nil 13374 (1285)
  Tree.nil)) 13394 (1287) (.node (.node Tree.nil 13414 (1288) Tree.nil) 13434 (1286) Tree.nil)) 13452 (1290) (.node (.node (.node Tree.nil 13465
  (1291) Tree.nil) 13485 (1292) (.node Tree.nil 13505 (1290) Tree.nil)) 13525 (1295) (.node (.node Tree.nil 13545 (1296) Tree.nil) 13564 (1295)
  Tree.nil))) 13569 (1296) (.node (.node (.node (.node Tree.nil 13574 (1297) Tree.nil) 13595 (1295) (.node Tree.nil 13615 (1298) Tree.nil)) 13635
  (1299) (.node (.node Tree.nil 13655 (1297) Tree.nil) 13675 (1299) Tree.nil)) 13694 (1302) (.node (.node (.node Tree.nil 13699 (1303) Tree.nil)
  13720 (1304) (.node Tree.nil 13740 (1304) Tree.nil)) 13760 (1305) (.node (.node Tree.nil 13780 (1304) Tree.nil) 13879 (1308) Tree.nil))))
/-- `Info.Uses`. -/
def usesTable : Tree Nat := (.node (.node (.node (.node (.node (.node (.node Tree.nil 13336 (19) Tree.nil) 13340 (22) (.node Tree.nil 13342 (1283)
  Tree.nil)) 13347 (1306) (.node (.node Tree.nil 13356 (19) Tree.nil) 13360 (1285) (.node Tree.nil 13367 (19) Tree.nil))) 13371 (22) (.node (.node
  (.node Tree.nil 13373 (1285) Tree.nil) 13378 (1306) (.node Tree.nil 13387 (19) Tree.nil)) 13391 (22) (.node (.node Tree.nil 13393 (1287) Tree.nil)
  13398 (1306) Tree.nil))) 13407 (19) (.node (.node (.node (.node Tree.nil 13411 (22) Tree.nil) 13413 (1288) (.node Tree.nil 13418 (1306) Tree.nil))
  13427 (19) (.node (.node Tree.nil 13431 (22) Tree.nil) 13433 (1286) Tree.nil)) 13438 (1306) (.node (.node (.node Tree.nil 13447 (19) Tree.nil)
  13451 (1290) (.node Tree.nil 13458 (19) Tree.nil)) 13462 (22) (.node (.node Tree.nil 13464 (1291) Tree.nil) 13469 (1306) Tree.nil)))) 13478 (19)
  (.node (.node (.node (.node (.node Tree.nil 13482 (22) Tree.nil) 13484 (1292) (.node Tree.nil 13489 (1306) Tree.nil)) 13498 (19) (.node (.node
  Tree.nil 13502 (22) Tree.nil) 13504 (1290) (.node Tree.nil 13509 (1306) Tree.nil))) 13518 (19) (.node (.node (.node Tree.nil 13522 (22) Tree.nil)
  13524 (1295) (.node Tree.nil 13529 (1306) Tree.nil)) 13538 (19) (.node (.node Tree.nil 13542 (22) Tree.nil) 13544 (1296) Tree.nil))) 13549 (1306)
  (.node (.node (.node (.node Tree.nil 13558 (19) Tree.nil) 13562 (21) (.node Tree.nil 13563 (1295) Tree.nil)) 13567 (21) (.node (.node Tree.nil
  13568 (1296) Tree.nil) 13572 (21) Tree.nil)) 13573 (1297) (.node (.node (.node Tree.nil 13579 (1306) Tree.nil) 13588 (19) (.node Tree.nil 13592
  (22) Tree.nil)) 13594 (1295) (.node (.node Tree.nil 13599 (1306) Tree.nil) 13608 (19) Tree.nil))))) 13612 (22) (.node (.node (.node (.node (.node
  (.node Tree.nil 13614 (1298) Tree.nil) 13619 (1306) (.node Tree.nil 13628 (19) Tree.nil)) 13632 (22) (.node (.node Tree.nil 13634 (1299) Tree.nil)
  13639 (1306) (.node Tree.nil 13648 (19) Tree.nil))) 13652 (22) (.node (.node (.node Tree.nil 13654 (1297) Tree.nil) 13659 (1306) (.node Tree.nil
  13668 (19) Tree.nil)) 13672 (22) (.node (.node Tree.nil 13674 (1299) Tree.nil) 13679 (1306) Tree.nil))) 13688 (19) (.node (.node (.node (.node
  Tree.nil 13692 (21) Tree.nil) 13693 (1302) (.node Tree.nil 13697 (21) Tree.nil)) 13698 (1303) (.node (.node Tree.nil 13704 (1306) Tree.nil) 13713
  (19) Tree.nil)) 13717 (22) (.node (.node (.node Tree.nil 13719 (1304) Tree.nil) 13724 (1306) (.node Tree.nil 13733 (19) Tree.nil)) 13737 (22)
  (.node (.node Tree.nil 13739 (1304) Tree.nil) 13744 (1306) Tree.nil)))) 13753 (19) (.node (.node (.node (.node (.node Tree.nil 13757 (22)
  Tree.nil) 13759 (1305) (.node Tree.nil 13764 (1306) Tree.nil)) 13773 (19) (.node (.node Tree.nil 13777 (22) Tree.nil) 13779 (1304) Tree.nil))
  13784 (1306) (.node (.node (.node Tree.nil 13793 (16) Tree.nil) 13800 (1306) (.node Tree.nil 13806 (16) Tree.nil)) 13810 (1313) (.node (.node
  Tree.nil 13811 (105) Tree.nil) 13817 (1306) Tree.nil))) 13823 (16) (.node (.node (.node (.node Tree.nil 13827 (1314) Tree.nil) 13828 (105) (.node
  Tree.nil 13834 (1306) Tree.nil)) 13840 (16) (.node (.node Tree.nil 13841 (16) Tree.nil) 13846 (23) Tree.nil)) 13851 (1306) (.node (.node (.node
  Tree.nil 13857 (19) Tree.nil) 13861 (23) (.node Tree.nil 13866 (1306) Tree.nil)) 13872 (16) (.node (.node Tree.nil 13876 (1317) Tree.nil) 13877
  (1308) Tree.nil))))))
/-- `Info.Selections`. -/
def selectionTable : Tree (GoType × Nat) := (.node (.node Tree.nil 13812 ((.pointer (.named 1306), 105)) Tree.nil) 13829 ((.pointer (.named 1306),
  105)) (.node Tree.nil 13878 ((.pointer (.named 1306), 1308)) Tree.nil))
/-- Identifiers that are names of imported packages. -/
def pkgNameTable : Tree GoString := Tree.nil
/-- Method sets. -/
def methodSetTable : Tree (List (GoString × Nat)) := (.node (.node Tree.nil 27 ([(s32, 1386)]) Tree.nil) 95 ([(s32, 20)]) (.node Tree.nil 6531
  ([(s31, 1310), (s25, 1307), (s29, 1309), (s32, 1311), (s28, 1308)]) Tree.nil))
/-- Types implementing `error`. -/
def implErrorTable : Tree Unit := (.node (.node Tree.nil 27 (()) Tree.nil) 95 (()) (.node Tree.nil 6531 (()) Tree.nil))
/-- Types implementing `error` with a code. -/
def implCodeTable : Tree Unit := (.node Tree.nil 6531 (()) Tree.nil)
/-- Types implementing `error` with a cause. -/
def implCauseTable : Tree Unit := (.node Tree.nil 6531 (()) Tree.nil)
/-- Signatures: types of parameters, variadic, number of results. -/
def sigTable : Tree (List GoType × Bool × Nat) := (.node (.node Tree.nil 6 (([], false, 1)) Tree.nil) 11 (([], false, 1)) (.node Tree.nil 23 (([],
  false, 1)) Tree.nil))
/-- Tuples of results. -/
def tupleTable : Tree (List GoType) := Tree.nil
/-- Fields of structs. -/
def structTable : Tree (List (GoString × GoType)) := (.node Tree.nil 1 ([(s27, .string)]) Tree.nil)
/-- Underlying types of named types. -/
def underlyingTable : Tree GoType := (.node (.node Tree.nil 19 (.interface 5) Tree.nil) 1306 (.struct 1) Tree.nil)
/-- Which types implement which interfaces. -/
def implTable : Tree (Tree Unit) := (.node Tree.nil 5 ((.node (.node Tree.nil 27 (()) Tree.nil) 95 (()) (.node Tree.nil 6531 (()) Tree.nil)))
  Tree.nil)
/-- Comments at return statements (`ast.NewCommentMap`). -/
def commentTable : Tree (List (List GoString)) := (.node (.node Tree.nil 13362 ([[s52]]) Tree.nil) 13453 ([[s53]]) Tree.nil)
/-- Function declarations. -/
def declTable : Tree DeclInfo := (.node (.node (.node (.node (.node Tree.nil 0 (⟨s0, true, none, some (CommentText.text [s54, s55, s56, s57, s56,
  s58]), 13353, 1283, []⟩) Tree.nil) 1 (⟨s2, true, none, some (CommentText.text [s59, s60, s56, s57, s56, s58]), 13364, 1284, []⟩) (.node Tree.nil 2
  (⟨s3, false, none, none, 13384, 1285, []⟩) Tree.nil)) 3 (⟨s4, true, none, some (CommentText.text [s61, s62, s56, s57, s56, s63, s64, s65]), 13404,
  1286, []⟩) (.node (.node Tree.nil 4 (⟨s5, false, none, none, 13424, 1287, []⟩) Tree.nil) 5 (⟨s6, false, none, none, 13444, 1288, []⟩) (.node
  Tree.nil 6 (⟨s7, true, none, some (CommentText.text [s66, s67, s68, s56, s57, s56, s69, s70, s71]), 13455, 1289, []⟩) Tree.nil))) 7 (⟨s8, false,
  none, none, 13475, 1290, []⟩) (.node (.node (.node Tree.nil 8 (⟨s9, false, none, none, 13495, 1291, []⟩) Tree.nil) 9 (⟨s10, false, none, none,
  13515, 1292, []⟩) (.node Tree.nil 10 (⟨s11, true, none, some (CommentText.text [s57, s56, s72, s73, s74, s75, s76, s77]), 13535, 1293, []⟩)
  Tree.nil)) 11 (⟨s13, true, none, some (CommentText.text [s57, s56, s78, s73, s74, s75, s76, s77]), 13555, 1294, []⟩) (.node (.node Tree.nil 12
  (⟨s12, false, none, none, 13585, 1295, []⟩) Tree.nil) 13 (⟨s14, false, none, none, 13605, 1296, []⟩) Tree.nil))) 14 (⟨s16, false, none, none,
  13625, 1297, []⟩) (.node (.node (.node (.node Tree.nil 15 (⟨s17, false, none, none, 13645, 1298, []⟩) Tree.nil) 16 (⟨s18, false, none, none,
  13665, 1299, []⟩) (.node Tree.nil 17 (⟨s19, true, none, some (CommentText.text [s57, s56, s79, s75, s76, s77]), 13685, 1300, []⟩) Tree.nil)) 18
  (⟨s20, true, none, some (CommentText.text [s57, s56, s80, s81, s82, s83, s84]), 13710, 1301, []⟩) (.node (.node Tree.nil 19 (⟨s21, false, none,
  none, 13730, 1302, []⟩) Tree.nil) 20 (⟨s22, false, none, none, 13750, 1303, []⟩) Tree.nil)) 21 (⟨s23, false, none, none, 13770, 1304, []⟩) (.node
  (.node (.node Tree.nil 22 (⟨s24, false, none, none, 13790, 1305, []⟩) Tree.nil) 23 (⟨s25, true, some 13801, none, 13815, 1307, [⟨13799, s26, (some
  25)⟩]⟩) (.node Tree.nil 24 (⟨s28, true, some 13818, none, 13832, 1308, [⟨13816, s26, (some 26)⟩]⟩) Tree.nil)) 25 (⟨s29, true, some 13835, none,
  13849, 1309, [⟨13833, s26, (some 27)⟩]⟩) (.node (.node Tree.nil 26 (⟨s31, true, some 13852, none, 13864, 1310, [⟨13850, s26, (some 28)⟩]⟩)
  Tree.nil) 27 (⟨s32, true, some 13867, none, 13882, 1311, [⟨13865, s26, (some 29)⟩]⟩) Tree.nil))))
/-- Named interfaces. -/
def interfaceTable : Tree Unit := (.node Tree.nil 19 (()) Tree.nil)
/-- Methods of named types. -/
def methodNameTable : Tree (List GoString) := (.node Tree.nil 1306 ([s25, s28, s29, s31, s32]) Tree.nil)
/-- Objects of interface methods. -/
def methodObjTable : Tree Nat := Tree.nil
/-- Syntax and types of the package, and the facts exported by the packages it imports. -/
def env : Env where
  funcs := [f0, f1, f2, f3, f4, f5, f6, f7, f8, f9, f10, f11, f12, f13, f14, f15, f16, f17, f18, f19, f20, f21, f22, f23, f24, f25, f26, f27]
  objects := objects
  typeOf := fun n => (typeTable.find n).getD (.other 0)
  value := valueTable.find
  callee := calleeTable.find
  uses := usesTable.find
  selection := selectionTable.find
  pkgName := pkgNameTable.find
  funcObj := fun f => ((declTable.find f).map (·.obj)).getD 0
  implError := fun t => has implErrorTable t
  implCode := fun t => has implCodeTable t
  sigResults := fun n => ((sigTable.find n).map (·.2.2)).getD 0
  methodSet := fun t name => ((typeKey t).bind methodSetTable.find).bind fun l => lookup name l
  functions := fun _ => none
  methods := fun _ => []
  comments := fun n => ((commentTable.find n).getD []).map CommentText.text
  isPrint := fun r => 32 ≤ r && r < 127
  facts := noFacts
/-- The package. -/
def package : Package where
  env := env
  decls := ⟨fun f => ((declTable.find f).map (·.name)).getD [], fun f => ((declTable.find f).map (·.exported)).getD false,
    fun f => (declTable.find f).bind (·.recv), fun f => (declTable.find f).bind (·.doc), fun t => has implCauseTable t,
    fun f => ((declTable.find f).map (·.pos)).getD 0⟩
  types := ⟨fun f => (((declTable.find f).bind (·.recv)).bind typeTable.find).getD (.other 0),
    fun f => ((declTable.find f).map (·.recvNames)).getD [], fun o => (interfaceTable.find o).isSome,
    fun o => (methodNameTable.find o).getD []⟩
  funcs := [0, 1, 2, 3, 4, 5, 6, 7, 8, 9, 10, 11, 12, 13, 14, 15, 16, 17, 18, 19, 20, 21, 22, 23, 24, 25, 26, 27]
  specs := [⟨13798, .named 1306, some [[s27]]⟩]
  ifaces := []
  methodObj := fun n => (methodObjTable.find n).getD 0
  conv := ⟨fun o => (underlyingTable.find o).getD (.other 0), fun n => ((sigTable.find n).map (·.1)).getD [],
    fun n => ((sigTable.find n).map (·.2.1)).getD false, fun n => (tupleTable.find n).getD [], fun n => (structTable.find n).getD [],
    fun t n => ((implTable.find n).map fun tr => has tr t).getD false⟩
  top := [
    .func 0,
    .func 1,
    .func 2,
    .func 3,
    .func 4,
    .func 5,
    .func 6,
    .func 7,
    .func 8,
    .func 9,
    .func 10,
    .func 11,
    .func 12,
    .func 13,
    .func 14,
    .func 15,
    .func 16,
    .func 17,
    .func 18,
    .func 19,
    .func 20,
    .func 21,
    .func 22,
    .node (.other 13798 [.other 13797 [.ident ⟨13791, s32, (some 1)⟩, .other 13796 [.other 13795 [.other 13794 [.ident ⟨13792, s27, (some 24)⟩,
  .ident ⟨13793, s85, none⟩]]]]]),
    .func 23,
    .func 24,
    .func 25,
    .func 26,
    .func 27]
/-- The run, in one order. -/
def result : Except Stop Outcome := runVerify package Check.source true
/-- What is expected.  The comments in the package say (with facts as `object: fact`):
```
recursion.go:9: SimpleRecursion: ErrorCodes: recursion-error
recursion.go:22: InnerRecursion: ErrorCodes: recursion-error
recursion.go:41: IndirectRecursion: ErrorCodes: recursion-error recursion-part1-error recursion-part2-error
recursion.go:71: IndirectInnerRecursion: ErrorCodes: recursion-inner1-error recursion-inner2-error recursion-inner3-error
recursion.go:104: AdvancedRecursionA: ErrorCodes: advanced-a-error advanced-c-error advanced-d-error advanced-e-error advanced-f-error advanced-g-error
recursion.go:119: AdvancedRecursionB: ErrorCodes: advanced-b-error advanced-c-error advanced-d-error advanced-e-error advanced-f-error advanced-g-error
recursion.go:172: AdvancedRecursionH: ErrorCodes: advanced-e-error advanced-f-error advanced-g-error advanced-h-error
recursion.go:186: SplitMergeA: ErrorCodes: splitmerge-a-error splitmerge-b-error splitmerge-c-error splitmerge-d-error splitmerge-e-error
recursion.go:224: Error: ErrorType{Field:{Name:"TheCode", Position:0}, Codes:}
``` -/
def expected : Check.Expected where
  tags := []
  ifaces := []
  signatures := []
  claims := []
  bodies := []
  mismatches := []
  conversions := []
  codes := [(1283, [b!"recursion-error"]),
    (1284, [b!"recursion-error"]),
    (1286, [b!"recursion-error", b!"recursion-part1-error", b!"recursion-part2-error"]),
    (1289, [b!"recursion-inner1-error", b!"recursion-inner2-error", b!"recursion-inner3-error"]),
    (1293, [b!"advanced-a-error", b!"advanced-c-error", b!"advanced-d-error", b!"advanced-e-error", b!"advanced-f-error", b!"advanced-g-error"]),
    (1294, [b!"advanced-b-error", b!"advanced-c-error", b!"advanced-d-error", b!"advanced-e-error", b!"advanced-f-error", b!"advanced-g-error"]),
    (1300, [b!"advanced-h-error", b!"advanced-e-error", b!"advanced-f-error", b!"advanced-g-error"]),
    (1301, [b!"splitmerge-a-error", b!"splitmerge-b-error", b!"splitmerge-c-error", b!"splitmerge-d-error", b!"splitmerge-e-error"])]
  ctors := []
  errorTypes := [(1306, { codes := [], field := some { name := b!"TheCode", position := 0 } })]
  interfaces := []
  objects := 1385

/-- What functions call, and which literals they visit. -/
def graph : Check.Graph :=
  [([0], []), ([2], []), ([2], []), ([4], []), ([5], []), ([3], []), ([7], []), ([8], []), ([9], []), ([7], []), ([12], []), ([13], []), ([12,
  13, 14], []), ([12], []), ([15], []), ([16], []), ([14], []), ([16], []), ([19, 20], []), ([21], []), ([21], []), ([22], []), ([21], []),
  ([], []), ([], []), ([], []), ([], []), ([24], [])]

theorem checked : Check.run package true expected graph = true := by decide +kernel

theorem imports : Check.Tables package.env.facts := tables_noFacts

theorem exported : Check.Tables (Check.factsOf result) := Check.tables checked imports

/-- The facts known before a run: those exported by some run over the imported packages. -/
def Imported (F : Facts) : Prop :=
  F = noFacts

/-- The facts known after a run. -/
def Exports (F : Facts) : Prop := Check.Exports package Imported true F

theorem imports_same (F : Facts) (h : Imported F) : Props.Run.SameFacts package.env.facts F := by
  obtain rfl := h
  exact (.refl _)

theorem exports_same {F : Facts} (h : Exports F) : Props.Run.SameFacts (Check.factsOf result) F :=
  Check.exports_same checked imports imports_same h

/-- **C54**: every run over the package has the expected result. -/
theorem always : Check.Always package Imported true expected :=
  Check.always checked imports imports_same

/-- For the nodes with diagnostics: file, line, and type of node. -/
def nodes : Tree (GoString × Nat × GoString) :=
  Tree.nil

/-- The names of the objects named in diagnostics other than by identifiers. -/
def objectNames : Tree GoString :=
  Tree.nil

def names : Names where
  object := fun o => (objectNames.find o).getD []
  kind := fun n => ((nodes.find n).map fun p => p.2.2).getD []

def place (n : NodeId) : GoString × Nat := ((nodes.find n).map fun p => (p.1, p.2.1)).getD ([], 0)

/-- What is printed: file, line and text. -/
def lines : List Check.Line := []

/-- **C54**: for every run over the package, these lines are printed. -/
theorem prints : Check.Prints package Imported true names place lines :=
  Check.prints always (by decide +kernel)

end Serum.Testdata.recursion
