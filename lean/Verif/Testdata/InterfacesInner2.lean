import Verif.Testdata.Support
import Verif.Testdata.InterfacesInner1

/-!
# C54: the package analysis/testdata/src/interfaces/inner2

Generated by `scripts/conformance/testdata.py` from inner2.go.  Numbers of syntax nodes, objects and types are arbitrary.  The tables hold
what `go/parser` and `go/types` say about the package.
-/

set_option maxRecDepth 100000
set_option linter.all false

namespace Serum.Testdata.interfacesInner2
open Serum Serum.Testdata

def s0 : GoString := b!"InterfaceMethod1"
def s1 : GoString := b!"InterfaceMethod2"
def s2 : GoString := b!"a"
def s3 : GoString := b!"b"
def s4 : GoString := b!"MethodWithoutError"
def s5 : GoString := b!"Inner1Method1"
def s6 : GoString := b!"Inner1Method2"
def s7 : GoString := b!"nil"
def s8 : GoString := b!"Inner1MethodWithoutError"
def s9 : GoString := b!"Code"
def s10 : GoString := b!"e"
def s11 : GoString := b!"TheCode"
def s12 : GoString := b!"Message"
def s13 : GoString := b!"Details"
def s14 : GoString := b!"Cause"
def s15 : GoString := b!"Error"
def s16 : GoString := b!"interface-1-error"
def s17 : GoString := b!"interface-3-error"
def s18 : GoString := b!"interface-2-error"
def s19 : GoString := b!"interface-4-error"
def s20 : GoString := b!"inner1"
def s21 : GoString := b!"// want Inner1Method1:\"ErrorCodes: interface-2-error\""
def s22 : GoString := b!"// want Inner1Method2:\"ErrorCodes:\""
def s23 : GoString := b!"// Errors:"
def s24 : GoString := b!"//"
def s25 : GoString := b!"//    - interface-1-error --"
def s26 : GoString := b!"//    - interface-3-error --"
def s27 : GoString := b!"//    - interface-2-error --"
def s28 : GoString := b!"//    - interface-4-error --"
def s29 : GoString := b!"// Errors: none"
def s30 : GoString := b!"ImplementOuter2"
def s31 : GoString := b!"ImplementOuterPointer2"
def s32 : GoString := b!"ImplementInner1Interface1"
def s33 : GoString := b!"string"
/-- inner2.go:10: `func InterfaceMethod1` -/
def f0 : FuncDef := ⟨11278, some ⟨11266, s0, none⟩, ⟨[], (some [⟨[], 11268⟩]), 160⟩, some [.ret 11276 [.unary 11275 true (.compositeLit 11274
  [.basicLit 11273])]], 166, 205⟩
/-- inner2.go:17: `func InterfaceMethod2` -/
def f1 : FuncDef := ⟨11298, some ⟨11282, s1, none⟩, ⟨[⟨[⟨11283, s2, (some 2)⟩, ⟨11284, s3, (some 3)⟩], 11285⟩], (some [⟨[], 11288⟩]), 303⟩, some
  [.ret 11296 [.unary 11295 true (.compositeLit 11294 [.basicLit 11293])]], 309, 348⟩
/-- inner2.go:21: `func MethodWithoutError` -/
def f2 : FuncDef := ⟨11315, some ⟨11302, s4, none⟩, ⟨[⟨[⟨11303, s2, (some 4)⟩, ⟨11304, s3, (some 5)⟩], 11305⟩], (some [⟨[], 11308⟩]), 405⟩, some
  [.ret 11313 [.ident ⟨11312, s2, (some 4)⟩]], 412, 425⟩
/-- inner2.go:30: `func InterfaceMethod1` -/
def f3 : FuncDef := ⟨11337, some ⟨11325, s0, none⟩, ⟨[], (some [⟨[], 11327⟩]), 558⟩, some [.ret 11335 [.unary 11334 true (.compositeLit 11333
  [.basicLit 11332])]], 564, 603⟩
/-- inner2.go:37: `func InterfaceMethod2` -/
def f4 : FuncDef := ⟨11358, some ⟨11342, s1, none⟩, ⟨[⟨[⟨11343, s2, (some 7)⟩, ⟨11344, s3, (some 8)⟩], 11345⟩], (some [⟨[], 11348⟩]), 709⟩, some
  [.ret 11356 [.unary 11355 true (.compositeLit 11354 [.basicLit 11353])]], 715, 754⟩
/-- inner2.go:41: `func MethodWithoutError` -/
def f5 : FuncDef := ⟨11376, some ⟨11363, s4, none⟩, ⟨[⟨[⟨11364, s2, (some 9)⟩, ⟨11365, s3, (some 10)⟩], 11366⟩], (some [⟨[], 11369⟩]), 819⟩, some
  [.ret 11374 [.ident ⟨11373, s2, (some 9)⟩]], 826, 839⟩
/-- inner2.go:50: `func Inner1Method1` -/
def f6 : FuncDef := ⟨11397, some ⟨11385, s5, none⟩, ⟨[], (some [⟨[], 11387⟩]), 974⟩, some [.ret 11395 [.unary 11394 true (.compositeLit 11393
  [.basicLit 11392])]], 980, 1073⟩
/-- inner2.go:55: `func Inner1Method2` -/
def f7 : FuncDef := ⟨11417, some ⟨11401, s6, none⟩, ⟨[⟨[⟨11402, s2, (some 12)⟩, ⟨11403, s3, (some 13)⟩], 11404⟩], (some [⟨[], 11410⟩]), 1151⟩, some
  [.ret 11415 [.ident ⟨11414, s7, none⟩]], 1165, 1216⟩
/-- inner2.go:59: `func Inner1MethodWithoutError` -/
def f8 : FuncDef := ⟨11436, some ⟨11421, s8, none⟩, ⟨[⟨[⟨11422, s2, (some 14)⟩, ⟨11423, s3, (some 15)⟩], 11424⟩], (some [⟨[], 11427⟩]), 1289⟩, some
  [.ret 11434 [.other 11433 [.ident ⟨11431, s2, (some 14)⟩, .ident ⟨11432, s3, (some 15)⟩]]], 1296, 1313⟩
/-- inner2.go:67: `func Code` -/
def f9 : FuncDef := ⟨11461, some ⟨11450, s9, none⟩, ⟨[], (some [⟨[], 11452⟩]), 1377⟩, some [.ret 11459 [.selector 11458 (.ident ⟨11456, s10, (some
  17)⟩) ⟨11457, s11, none⟩]], 1398, 1418⟩
/-- inner2.go:68: `func Message` -/
def f10 : FuncDef := ⟨11478, some ⟨11467, s12, none⟩, ⟨[], (some [⟨[], 11469⟩]), 1445⟩, some [.ret 11476 [.selector 11475 (.ident ⟨11473, s10, (some
  18)⟩) ⟨11474, s11, none⟩]], 1463, 1483⟩
/-- inner2.go:69: `func Details` -/
def f11 : FuncDef := ⟨11495, some ⟨11484, s13, none⟩, ⟨[], (some [⟨[], 11488⟩]), 1510⟩, some [.ret 11493 [.ident ⟨11492, s7, none⟩]], 1528, 1542⟩
/-- inner2.go:70: `func Cause` -/
def f12 : FuncDef := ⟨11510, some ⟨11501, s14, none⟩, ⟨[], (some [⟨[], 11503⟩]), 1567⟩, some [.ret 11508 [.ident ⟨11507, s7, none⟩]], 1587, 1601⟩
/-- inner2.go:71: `func Error` -/
def f13 : FuncDef := ⟨11528, some ⟨11516, s15, none⟩, ⟨[], (some [⟨[], 11518⟩]), 1626⟩, some [.ret 11526 [.call 11525 (.selector 11524 (.ident
  ⟨11522, s10, (some 21)⟩) ⟨11523, s12, none⟩) []]], 1646, 1668⟩
/-- The objects of go/ast, in the order of their numbers. -/
def objects : List ObjInfo := [
  ⟨.typ, 49, .typeSpec⟩,
  ⟨.typ, 1320, .typeSpec⟩,
  ⟨.var, 290, .other⟩,
  ⟨.var, 293, .other⟩,
  ⟨.var, 392, .other⟩,
  ⟨.var, 395, .other⟩,
  ⟨.typ, 432, .typeSpec⟩,
  ⟨.var, 696, .other⟩,
  ⟨.var, 699, .other⟩,
  ⟨.var, 806, .other⟩,
  ⟨.var, 809, .other⟩,
  ⟨.typ, 846, .typeSpec⟩,
  ⟨.var, 1138, .other⟩,
  ⟨.var, 1141, .other⟩,
  ⟨.var, 1276, .other⟩,
  ⟨.var, 1279, .other⟩,
  ⟨.var, 1336, .other⟩,
  ⟨.var, 1360, .other⟩,
  ⟨.var, 1425, .other⟩,
  ⟨.var, 1490, .other⟩,
  ⟨.var, 1549, .other⟩,
  ⟨.var, 1608, .other⟩]
/-- Types of expressions (`Info.Types`, `Info.Defs`, `Info.Uses`). -/
def typeTable : Tree GoType := (.node (.node (.node (.node (.node (.node (.node (.node Tree.nil 11258 (.named 824) Tree.nil) 11260 (.struct 2)
  Tree.nil) 11263 (.named 824) (.node Tree.nil 11266 (.signature 6) Tree.nil)) 11268 (.named 19) (.node (.node Tree.nil 11271 (.signature 6)
  Tree.nil) 11272 (.named 836) (.node Tree.nil 11273 (.string) Tree.nil))) 11274 (.named 836) (.node (.node (.node (.node Tree.nil 11275 (.pointer
  (.named 836)) Tree.nil) 11279 (.named 824) Tree.nil) 11282 (.signature 27) (.node Tree.nil 11283 (.string) Tree.nil)) 11284 (.string) (.node
  (.node Tree.nil 11285 (.string) Tree.nil) 11288 (.named 19) (.node Tree.nil 11291 (.signature 27) Tree.nil)))) 11292 (.named 836) (.node (.node
  (.node (.node (.node Tree.nil 11293 (.string) Tree.nil) 11294 (.named 836) Tree.nil) 11295 (.pointer (.named 836)) (.node Tree.nil 11299 (.named
  824) Tree.nil)) 11302 (.signature 81) (.node (.node Tree.nil 11303 (.string) Tree.nil) 11304 (.string) (.node Tree.nil 11305 (.string) Tree.nil)))
  11308 (.string) (.node (.node (.node Tree.nil 11311 (.signature 81) Tree.nil) 11312 (.string) (.node Tree.nil 11316 (.named 828) Tree.nil)) 11318
  (.struct 2) (.node (.node Tree.nil 11321 (.named 828) Tree.nil) 11322 (.pointer (.named 828)) (.node Tree.nil 11325 (.signature 6) Tree.nil)))))
  11327 (.named 19) (.node (.node (.node (.node (.node (.node Tree.nil 11330 (.signature 6) Tree.nil) 11331 (.named 836) Tree.nil) 11332 (.string)
  (.node Tree.nil 11333 (.named 836) Tree.nil)) 11334 (.pointer (.named 836)) (.node (.node Tree.nil 11338 (.named 828) Tree.nil) 11339 (.pointer
  (.named 828)) (.node Tree.nil 11342 (.signature 27) Tree.nil))) 11343 (.string) (.node (.node (.node (.node Tree.nil 11344 (.string) Tree.nil)
  11345 (.string) Tree.nil) 11348 (.named 19) (.node Tree.nil 11351 (.signature 27) Tree.nil)) 11352 (.named 836) (.node (.node Tree.nil 11353
  (.string) Tree.nil) 11354 (.named 836) (.node Tree.nil 11355 (.pointer (.named 836)) Tree.nil)))) 11359 (.named 828) (.node (.node (.node (.node
  (.node Tree.nil 11360 (.pointer (.named 828)) Tree.nil) 11363 (.signature 81) Tree.nil) 11364 (.string) (.node Tree.nil 11365 (.string) Tree.nil))
  11366 (.string) (.node (.node Tree.nil 11369 (.string) Tree.nil) 11372 (.signature 81) (.node Tree.nil 11373 (.string) Tree.nil))) 11377 (.named
  832) (.node (.node (.node Tree.nil 11379 (.struct 2) Tree.nil) 11382 (.named 832) (.node Tree.nil 11385 (.signature 6) Tree.nil)) 11387 (.named
  19) (.node (.node Tree.nil 11390 (.signature 6) Tree.nil) 11391 (.named 836) (.node Tree.nil 11392 (.string) Tree.nil)))))) 11393 (.named 836)
  (.node (.node (.node (.node (.node (.node (.node Tree.nil 11394 (.pointer (.named 836)) Tree.nil) 11398 (.named 832) Tree.nil) 11401 (.signature
  80) (.node Tree.nil 11402 (.string) Tree.nil)) 11403 (.string) (.node (.node Tree.nil 11404 (.string) Tree.nil) 11408 (.named 786) (.node Tree.nil
  11409 (.named 786) Tree.nil))) 11410 (.pointer (.named 786)) (.node (.node (.node (.node Tree.nil 11413 (.signature 80) Tree.nil) 11414
  (.untypedNil) Tree.nil) 11418 (.named 832) (.node Tree.nil 11421 (.signature 81) Tree.nil)) 11422 (.string) (.node (.node Tree.nil 11423 (.string)
  Tree.nil) 11424 (.string) (.node Tree.nil 11427 (.string) Tree.nil)))) 11430 (.signature 81) (.node (.node (.node (.node (.node Tree.nil 11431
  (.string) Tree.nil) 11432 (.string) Tree.nil) 11433 (.string) (.node Tree.nil 11437 (.named 836) Tree.nil)) 11438 (.string) (.node (.node Tree.nil
  11439 (.string) Tree.nil) 11442 (.struct 1) (.node Tree.nil 11445 (.pointer (.named 836)) Tree.nil))) 11446 (.named 836) (.node (.node (.node
  Tree.nil 11447 (.pointer (.named 836)) Tree.nil) 11450 (.signature 11) (.node Tree.nil 11452 (.string) Tree.nil)) 11455 (.signature 11) (.node
  (.node Tree.nil 11456 (.pointer (.named 836)) Tree.nil) 11457 (.string) (.node Tree.nil 11458 (.string) Tree.nil))))) 11462 (.pointer (.named
  836)) (.node (.node (.node (.node (.node (.node Tree.nil 11463 (.named 836) Tree.nil) 11464 (.pointer (.named 836)) Tree.nil) 11467 (.signature
  11) (.node Tree.nil 11469 (.string) Tree.nil)) 11472 (.signature 11) (.node (.node Tree.nil 11473 (.pointer (.named 836)) Tree.nil) 11474
  (.string) (.node Tree.nil 11475 (.string) Tree.nil))) 11479 (.pointer (.named 836)) (.node (.node (.node (.node Tree.nil 11480 (.named 836)
  Tree.nil) 11481 (.pointer (.named 836)) Tree.nil) 11484 (.signature 23) (.node Tree.nil 11486 (.string) Tree.nil)) 11487 (.string) (.node (.node
  Tree.nil 11488 (.map (.string) (.string)) Tree.nil) 11491 (.signature 23) (.node Tree.nil 11492 (.untypedNil) Tree.nil)))) 11496 (.pointer (.named
  836)) (.node (.node (.node (.node (.node Tree.nil 11497 (.named 836) Tree.nil) 11498 (.pointer (.named 836)) Tree.nil) 11501 (.signature 6) (.node
  Tree.nil 11503 (.named 19) Tree.nil)) 11506 (.signature 6) (.node (.node Tree.nil 11507 (.untypedNil) Tree.nil) 11511 (.pointer (.named 836))
  (.node Tree.nil 11512 (.named 836) Tree.nil))) 11513 (.pointer (.named 836)) (.node (.node (.node Tree.nil 11516 (.signature 11) Tree.nil) 11518
  (.string) (.node Tree.nil 11521 (.signature 11) Tree.nil)) 11522 (.pointer (.named 836)) (.node (.node Tree.nil 11523 (.signature 11) Tree.nil)
  11524 (.signature 11) (.node Tree.nil 11525 (.string) Tree.nil)))))))
/-- Constant values of expressions. -/
def valueTable : Tree Const := (.node (.node (.node Tree.nil 11273 (.str s16) Tree.nil) 11293 (.str s17) Tree.nil) 11332 (.str s18) (.node (.node
  Tree.nil 11353 (.str s19) Tree.nil) 11392 (.str s18) Tree.nil))
/-- `typeutil.Callee` of call expressions. -/
def calleeTable : Tree Nat := (.node Tree.nil 11525 (838) Tree.nil)
/-- `Info.Uses`. -/
def usesTable : Tree Nat := (.node (.node (.node (.node (.node (.node Tree.nil 11263 (824) Tree.nil) 11268 (19) (.node Tree.nil 11272 (836)
  Tree.nil)) 11279 (824) (.node (.node Tree.nil 11285 (16) Tree.nil) 11288 (19) Tree.nil)) 11292 (836) (.node (.node (.node Tree.nil 11299 (824)
  Tree.nil) 11305 (16) (.node Tree.nil 11308 (16) Tree.nil)) 11312 (845) (.node (.node Tree.nil 11321 (828) Tree.nil) 11327 (19) Tree.nil))) 11331
  (836) (.node (.node (.node (.node Tree.nil 11338 (828) Tree.nil) 11345 (16) (.node Tree.nil 11348 (19) Tree.nil)) 11352 (836) (.node (.node
  Tree.nil 11359 (828) Tree.nil) 11366 (16) Tree.nil)) 11369 (16) (.node (.node (.node Tree.nil 11373 (849) Tree.nil) 11382 (832) (.node Tree.nil
  11387 (19) Tree.nil)) 11391 (836) (.node (.node Tree.nil 11398 (832) Tree.nil) 11404 (16) Tree.nil)))) 11408 (786) (.node (.node (.node (.node
  (.node Tree.nil 11414 (23) Tree.nil) 11418 (832) (.node Tree.nil 11424 (16) Tree.nil)) 11427 (16) (.node (.node Tree.nil 11431 (853) Tree.nil)
  11432 (854) Tree.nil)) 11439 (16) (.node (.node (.node Tree.nil 11446 (836) Tree.nil) 11452 (16) (.node Tree.nil 11456 (855) Tree.nil)) 11457
  (105) (.node (.node Tree.nil 11463 (836) Tree.nil) 11469 (16) Tree.nil))) 11473 (856) (.node (.node (.node (.node Tree.nil 11474 (105) Tree.nil)
  11480 (836) (.node Tree.nil 11486 (16) Tree.nil)) 11487 (16) (.node (.node Tree.nil 11492 (23) Tree.nil) 11497 (836) Tree.nil)) 11503 (19) (.node
  (.node (.node Tree.nil 11507 (23) Tree.nil) 11512 (836) Tree.nil) 11518 (16) (.node (.node Tree.nil 11522 (859) Tree.nil) 11523 (838)
  Tree.nil)))))
/-- `Info.Selections`. -/
def selectionTable : Tree (GoType × Nat) := (.node (.node Tree.nil 11458 ((.pointer (.named 836), 105)) Tree.nil) 11475 ((.pointer (.named 836),
  105)) (.node Tree.nil 11524 ((.pointer (.named 836), 838)) Tree.nil))
/-- Identifiers that are names of imported packages. -/
def pkgNameTable : Tree GoString := (.node Tree.nil 11407 (s20) Tree.nil)
/-- Method sets. -/
def methodSetTable : Tree (List (GoString × Nat)) := (.node (.node (.node (.node Tree.nil 27 ([(s15, 1386)]) Tree.nil) 95 ([(s15, 20)]) Tree.nil)
  3931 ([(s14, 790), (s9, 787), (s13, 789), (s15, 791), (s12, 788)]) (.node Tree.nil 4120 ([(s0, 825), (s1, 826), (s4, 827)]) Tree.nil)) 4121 ([(s0,
  825), (s1, 826), (s4, 827)]) (.node (.node (.node Tree.nil 4141 ([(s0, 829), (s1, 830), (s4, 831)]) Tree.nil) 4160 ([(s5, 833), (s6, 834), (s8,
  835)]) Tree.nil) 4161 ([(s5, 833), (s6, 834), (s8, 835)]) (.node Tree.nil 4181 ([(s14, 840), (s9, 837), (s13, 839), (s15, 841), (s12, 838)])
  Tree.nil)))
/-- Types implementing `error`. -/
def implErrorTable : Tree Unit := (.node (.node (.node Tree.nil 27 (()) Tree.nil) 95 (()) Tree.nil) 3931 (()) (.node Tree.nil 4181 (()) Tree.nil))
/-- Types implementing `error` with a code. -/
def implCodeTable : Tree Unit := (.node (.node Tree.nil 3931 (()) Tree.nil) 4181 (()) Tree.nil)
/-- Types implementing `error` with a cause. -/
def implCauseTable : Tree Unit := (.node (.node Tree.nil 3931 (()) Tree.nil) 4181 (()) Tree.nil)
/-- Signatures: types of parameters, variadic, number of results. -/
def sigTable : Tree (List GoType × Bool × Nat) := (.node (.node (.node Tree.nil 6 (([], false, 1)) Tree.nil) 11 (([], false, 1)) (.node Tree.nil 23
  (([], false, 1)) Tree.nil)) 27 (([.string, .string], false, 1)) (.node (.node Tree.nil 80 (([.string, .string], false, 1)) Tree.nil) 81
  (([.string, .string], false, 1)) Tree.nil))
/-- Tuples of results. -/
def tupleTable : Tree (List GoType) := Tree.nil
/-- Fields of structs. -/
def structTable : Tree (List (GoString × GoType)) := (.node (.node Tree.nil 1 ([(s11, .string)]) Tree.nil) 2 ([]) Tree.nil)
/-- Underlying types of named types. -/
def underlyingTable : Tree GoType := (.node (.node (.node Tree.nil 19 (.interface 5) Tree.nil) 786 (.struct 1) (.node Tree.nil 824 (.struct 2)
  Tree.nil)) 828 (.struct 2) (.node (.node Tree.nil 832 (.struct 2) Tree.nil) 836 (.struct 1) Tree.nil))
/-- Which types implement which interfaces. -/
def implTable : Tree (Tree Unit) := (.node Tree.nil 5 ((.node (.node (.node Tree.nil 27 (()) Tree.nil) 95 (()) Tree.nil) 3931 (()) (.node Tree.nil
  4181 (()) Tree.nil))) Tree.nil)
/-- Comments at return statements (`ast.NewCommentMap`). -/
def commentTable : Tree (List (List GoString)) := (.node (.node Tree.nil 11395 ([[s21]]) Tree.nil) 11415 ([[s22]]) Tree.nil)
/-- Function declarations. -/
def declTable : Tree DeclInfo := (.node (.node (.node (.node Tree.nil 0 (⟨s0, true, some 11263, some (CommentText.text [s23, s24, s25]), 11278, 825,
  []⟩) Tree.nil) 1 (⟨s1, true, some 11279, some (CommentText.text [s23, s24, s26]), 11298, 826, []⟩) (.node Tree.nil 2 (⟨s4, true, some 11299, none,
  11315, 827, []⟩) Tree.nil)) 3 (⟨s0, true, some 11322, some (CommentText.text [s23, s24, s27]), 11337, 829, []⟩) (.node (.node Tree.nil 4 (⟨s1,
  true, some 11339, some (CommentText.text [s23, s24, s28]), 11358, 830, []⟩) Tree.nil) 5 (⟨s4, true, some 11360, none, 11376, 831, []⟩) (.node
  Tree.nil 6 (⟨s5, true, some 11382, some (CommentText.text [s23, s24, s27]), 11397, 833, []⟩) Tree.nil))) 7 (⟨s6, true, some 11398, some
  (CommentText.text [s29]), 11417, 834, []⟩) (.node (.node (.node Tree.nil 8 (⟨s8, true, some 11418, none, 11436, 835, []⟩) Tree.nil) 9 (⟨s9, true,
  some 11447, none, 11461, 837, [⟨11445, s10, (some 17)⟩]⟩) (.node Tree.nil 10 (⟨s12, true, some 11464, none, 11478, 838, [⟨11462, s10, (some
  18)⟩]⟩) Tree.nil)) 11 (⟨s13, true, some 11481, none, 11495, 839, [⟨11479, s10, (some 19)⟩]⟩) (.node (.node Tree.nil 12 (⟨s14, true, some 11498,
  none, 11510, 840, [⟨11496, s10, (some 20)⟩]⟩) Tree.nil) 13 (⟨s15, true, some 11513, none, 11528, 841, [⟨11511, s10, (some 21)⟩]⟩) Tree.nil)))
/-- Named interfaces. -/
def interfaceTable : Tree Unit := (.node Tree.nil 19 (()) Tree.nil)
/-- Methods of named types. -/
def methodNameTable : Tree (List GoString) := (.node (.node (.node Tree.nil 786 ([s9, s12, s13, s14, s15]) Tree.nil) 824 ([s0, s1, s4]) Tree.nil)
  828 ([s0, s1, s4]) (.node (.node Tree.nil 832 ([s5, s6, s8]) Tree.nil) 836 ([s9, s12, s13, s14, s15]) Tree.nil))
/-- Objects of interface methods. -/
def methodObjTable : Tree Nat := Tree.nil
/-- Syntax and types of the package, and the facts exported by the packages it imports. -/
def env : Env where
  funcs := [f0, f1, f2, f3, f4, f5, f6, f7, f8, f9, f10, f11, f12, f13]
  objects := objects
  typeOf := fun n => (typeTable.find n).getD (.other 0)
  value := valueTable.find
  callee := calleeTable.find
  uses := usesTable.find
  selection := selectionTable.find
  pkgName := pkgNameTable.find
  funcObj := fun f => ((declTable.find f).map (·.obj)).getD 0
  implError := fun t => has implErrorTable t
  implCode := fun t => has implCodeTable t
  sigResults := fun n => ((sigTable.find n).map (·.2.2)).getD 0
  methodSet := fun t name => ((typeKey t).bind methodSetTable.find).bind fun l => lookup name l
  functions := fun _ => none
  methods := fun _ => []
  comments := fun n => ((commentTable.find n).getD []).map CommentText.text
  isPrint := fun r => 32 ≤ r && r < 127
  facts := merge (noFacts) (Check.factsOf interfacesInner1.result)
/-- The package. -/
def package : Package where
  env := env
  decls := ⟨fun f => ((declTable.find f).map (·.name)).getD [], fun f => ((declTable.find f).map (·.exported)).getD false,
    fun f => (declTable.find f).bind (·.recv), fun f => (declTable.find f).bind (·.doc), fun t => has implCauseTable t,
    fun f => ((declTable.find f).map (·.pos)).getD 0⟩
  types := ⟨fun f => (((declTable.find f).bind (·.recv)).bind typeTable.find).getD (.other 0),
    fun f => ((declTable.find f).map (·.recvNames)).getD [], fun o => (interfaceTable.find o).isSome,
    fun o => (methodNameTable.find o).getD []⟩
  funcs := [0, 1, 2, 3, 4, 5, 6, 7, 8, 9, 10, 11, 12, 13]
  specs := [⟨11262, .named 824, some []⟩, ⟨11320, .named 828, some []⟩, ⟨11381, .named 832, some []⟩, ⟨11444, .named 836, some [[s11]]⟩]
  ifaces := []
  methodObj := fun n => (methodObjTable.find n).getD 0
  conv := ⟨fun o => (underlyingTable.find o).getD (.other 0), fun n => ((sigTable.find n).map (·.1)).getD [],
    fun n => ((sigTable.find n).map (·.2.1)).getD false, fun n => (tupleTable.find n).getD [], fun n => (structTable.find n).getD [],
    fun t n => ((implTable.find n).map fun tr => has tr t).getD false⟩
  top := [
    .node (.other 11257 [.other 11256 [.basicLit 11255]]),
    .node (.other 11262 [.other 11261 [.ident ⟨11258, s30, (some 0)⟩, .other 11260 [.other 11259 []]]]),
    .func 0,
    .func 1,
    .func 2,
    .node (.other 11320 [.other 11319 [.ident ⟨11316, s31, (some 6)⟩, .other 11318 [.other 11317 []]]]),
    .func 3,
    .func 4,
    .func 5,
    .node (.other 11381 [.other 11380 [.ident ⟨11377, s32, (some 11)⟩, .other 11379 [.other 11378 []]]]),
    .func 6,
    .func 7,
    .func 8,
    .node (.other 11444 [.other 11443 [.ident ⟨11437, s15, (some 1)⟩, .other 11442 [.other 11441 [.other 11440 [.ident ⟨11438, s11, (some 16)⟩,
  .ident ⟨11439, s33, none⟩]]]]]),
    .func 9,
    .func 10,
    .func 11,
    .func 12,
    .func 13]
/-- The run, in one order. -/
def result : Except Stop Outcome := runVerify package Check.source true
/-- What is expected.  The comments in the package say (with facts as `object: fact`):
```
inner2.go:50: Inner1Method1: ErrorCodes: interface-2-error
inner2.go:55: Inner1Method2: ErrorCodes:
``` -/
def expected : Check.Expected where
  tags := []
  ifaces := []
  signatures := []
  claims := []
  bodies := []
  mismatches := []
  conversions := []
  codes := [(774, [b!"interface-1-error", b!"interface-2-error", b!"interface-3-error", b!"interface-4-error"]),
    (775, [b!"some-error"]),
    (776, [b!"interface-1-error", b!"interface-2-error"]),
    (777, [b!"interface-1-error", b!"interface-2-error", b!"interface-3-error", b!"interface-4-error"]),
    (779, [b!"interface-1-error"]),
    (780, [b!"interface-3-error"]),
    (783, [b!"interface-2-error"]),
    (784, [b!"interface-4-error"]),
    (792, [b!"interface-1-error", b!"interface-2-error"]),
    (793, [b!"interface-3-error", b!"interface-4-error"]),
    (795, [b!"interface-1-error", b!"interface-2-error"]),
    (796, [b!"inner1-error"]),
    (799, [b!"interface-1-error", b!"interface-2-error"]),
    (825, [b!"interface-1-error"]),
    (826, [b!"interface-3-error"]),
    (829, [b!"interface-2-error"]),
    (830, [b!"interface-4-error"]),
    (833, [b!"interface-2-error"]),
    (834, [])]
  ctors := []
  errorTypes := [(786, { codes := [], field := some { name := b!"TheCode", position := 0 } }),
    (836, { codes := [], field := some { name := b!"TheCode", position := 0 } })]
  interfaces := [(769, [(b!"Inner1Method2", [b!"interface-3-error", b!"interface-4-error"]), (b!"Inner1Method1", [b!"interface-1-error", b!"interface-2-error"])]),
    (770, [(b!"SimpleInterfaceMethod", [b!"interface-1-error", b!"interface-2-error"])]),
    (771, [(b!"SimpleInterfaceMethod", [b!"inner1-error"])]),
    (773, [(b!"Inner1YesCodes", [b!"interface-1-error", b!"interface-2-error"])])]
  objects := 1385

/-- What functions call, and which literals they visit. -/
def graph : Check.Graph :=
  [([], []), ([], []), ([], []), ([], []), ([], []), ([], []), ([], []), ([], []), ([], []), ([], []), ([], []), ([], []), ([], []), ([10],
  [])]

theorem checked : Check.run package true expected graph = true := by decide +kernel

theorem imports : Check.Tables package.env.facts := (tables_noFacts.merge interfacesInner1.exported)

theorem exported : Check.Tables (Check.factsOf result) := Check.tables checked imports

/-- The facts known before a run: those exported by some run over the imported packages. -/
def Imported (F : Facts) : Prop :=
  ∃ F0, interfacesInner1.Exports F0 ∧ F = merge (noFacts) F0

/-- The facts known after a run. -/
def Exports (F : Facts) : Prop := Check.Exports package Imported true F

theorem imports_same (F : Facts) (h : Imported F) : Props.Run.SameFacts package.env.facts F := by
  obtain ⟨F0, h0, rfl⟩ := h
  exact (Props.Run.SameFacts.merge (.refl _) (interfacesInner1.exports_same h0))

theorem exports_same {F : Facts} (h : Exports F) : Props.Run.SameFacts (Check.factsOf result) F :=
  Check.exports_same checked imports imports_same h

/-- **C54**: every run over the package has the expected result. -/
theorem always : Check.Always package Imported true expected :=
  Check.always checked imports imports_same

/-- For the nodes with diagnostics: file, line, and type of node. -/
def nodes : Tree (GoString × Nat × GoString) :=
  Tree.nil

/-- The names of the objects named in diagnostics other than by identifiers. -/
def objectNames : Tree GoString :=
  Tree.nil

def names : Names where
  object := fun o => (objectNames.find o).getD []
  kind := fun n => ((nodes.find n).map fun p => p.2.2).getD []

def place (n : NodeId) : GoString × Nat := ((nodes.find n).map fun p => (p.1, p.2.1)).getD ([], 0)

/-- What is printed: file, line and text. -/
def lines : List Check.Line := []

/-- **C54**: for every run over the package, these lines are printed. -/
theorem prints : Check.Prints package Imported true names place lines :=
  Check.prints always (by decide +kernel)

end Serum.Testdata.interfacesInner2
