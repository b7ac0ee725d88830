import Verif.Testdata.Support

/-!
# C54: the package analysis/testdata/src/methods

Generated by `scripts/conformance/testdata.py` from methods.go.  Numbers of syntax nodes, objects and types are arbitrary.  The tables hold
what `go/parser` and `go/types` say about the package.
-/

set_option maxRecDepth 100000
set_option linter.all false

namespace Serum.Testdata.methods
open Serum Serum.Testdata

def s0 : GoString := b!"Easy1"
def s1 : GoString := b!"Easy2"
def s2 : GoString := b!"methodA"
def s3 : GoString := b!"valueMethodA"
def s4 : GoString := b!"methodB"
def s5 : GoString := b!"valueMethodB"
def s6 : GoString := b!"methodC"
def s7 : GoString := b!"valueMethodC"
def s8 : GoString := b!"MethodCall"
def s9 : GoString := b!"a"
def s10 : GoString := b!"IndirectMethodCall"
def s11 : GoString := b!"DereferencedMethodCall"
def s12 : GoString := b!"PromotedCall"
def s13 : GoString := b!"true"
def s14 : GoString := b!"d"
def s15 : GoString := b!"nil"
def s16 : GoString := b!"IndirectPromotedCall"
def s17 : GoString := b!"DereferencedPromotedCall"
def s18 : GoString := b!"FunctionCallingMethods"
def s19 : GoString := b!"b"
def s20 : GoString := b!"x"
def s21 : GoString := b!"ArrayMethodCall"
def s22 : GoString := b!"ds"
def s23 : GoString := b!"_"
def s24 : GoString := b!"Struct"
def s25 : GoString := b!"s"
def s26 : GoString := b!"D"
def s27 : GoString := b!"MultipleResults"
def s28 : GoString := b!"A"
def s29 : GoString := b!"CallMultipleResults"
def s30 : GoString := b!"err"
def s31 : GoString := b!"self"
def s32 : GoString := b!"Chained"
def s33 : GoString := b!"Code"
def s34 : GoString := b!"e"
def s35 : GoString := b!"TheCode"
def s36 : GoString := b!"Message"
def s37 : GoString := b!"Details"
def s38 : GoString := b!"Cause"
def s39 : GoString := b!"Error"
def s40 : GoString := b!"easy-error"
def s41 : GoString := b!"x-error"
def s42 : GoString := b!"x-value-error"
def s43 : GoString := b!"a-error"
def s44 : GoString := b!"a-value-error"
def s45 : GoString := b!"b-error"
def s46 : GoString := b!"b-value-error"
def s47 : GoString := b!"c-error"
def s48 : GoString := b!"c-value-error"
def s49 : GoString := b!"y-error"
def s50 : GoString := b!"y-value-error"
def s51 : GoString := b!"B"
def s52 : GoString := b!"C"
def s53 : GoString := b!"U"
def s54 : GoString := b!"V"
def s55 : GoString := b!"S"
def s56 : GoString := b!"T"
def s57 : GoString := b!"// want Easy1:\"ErrorCodes: easy-error\""
def s58 : GoString := b!"// want Easy2:\"ErrorCodes: easy-error\""
def s59 : GoString := b!"// want MethodCall:\"ErrorCodes: a-error\""
def s60 : GoString := b!"// want IndirectMethodCall:\"ErrorCodes: a-error\""
def s61 : GoString := b!"// want DereferencedMethodCall:\"ErrorCodes: a-value-error\""
def s62 : GoString := b!"// want Struct:\"ErrorCodes: a-error\""
def s63 : GoString := b!"// want MultipleResults:\"ErrorCodes: c-error\""
def s64 : GoString := b!"// want Chained:\"ErrorCodes: a-error\""
def s65 : GoString := b!"// Errors:"
def s66 : GoString := b!"//"
def s67 : GoString := b!"//    - easy-error -- is always returned"
def s68 : GoString := b!"// Unused, here to test that the correct methodA is found."
def s69 : GoString := b!"// Unused, here to test that the correct valueMethodA is found."
def s70 : GoString := b!"//    - a-error --"
def s71 : GoString := b!"//    - a-value-error --"
def s72 : GoString := b!"//    - b-error --"
def s73 : GoString := b!"//    - c-error --"
def s74 : GoString := b!"//    - b-value-error --"
def s75 : GoString := b!"//    - c-value-error --"
def s76 : GoString := b!"//    - x-error --"
def s77 : GoString := b!"string"
def s78 : GoString := b!"X"
def s79 : GoString := b!"Y"
def s80 : GoString := b!"Z"
def s81 : GoString := b!"int"
/-- methods.go:25: `func Easy1` -/
def f0 : FuncDef := ⟨11634, some ⟨11622, s0, none⟩, ⟨[], (some [⟨[], 11624⟩]), 233⟩, some [.ret 11632 [.unary 11631 true (.compositeLit 11630
  [.basicLit 11629])]], 239, 310⟩
/-- methods.go:32: `func Easy1` -/
def f1 : FuncDef := ⟨11650, some ⟨11638, s0, none⟩, ⟨[], (some [⟨[], 11640⟩]), 384⟩, some [.ret 11648 [.unary 11647 true (.compositeLit 11646
  [.basicLit 11645])]], 390, 461⟩
/-- methods.go:39: `func Easy1` -/
def f2 : FuncDef := ⟨11666, some ⟨11654, s0, none⟩, ⟨[], (some [⟨[], 11656⟩]), 535⟩, some [.ret 11664 [.unary 11663 true (.compositeLit 11662
  [.basicLit 11661])]], 541, 612⟩
/-- methods.go:46: `func Easy1` -/
def f3 : FuncDef := ⟨11682, some ⟨11670, s0, none⟩, ⟨[], (some [⟨[], 11672⟩]), 686⟩, some [.ret 11680 [.unary 11679 true (.compositeLit 11678
  [.basicLit 11677])]], 692, 763⟩
/-- methods.go:53: `func Easy2` -/
def f4 : FuncDef := ⟨11699, some ⟨11687, s1, none⟩, ⟨[], (some [⟨[], 11689⟩]), 838⟩, some [.ret 11697 [.unary 11696 true (.compositeLit 11695
  [.basicLit 11694])]], 844, 915⟩
/-- methods.go:60: `func Easy2` -/
def f5 : FuncDef := ⟨11716, some ⟨11704, s1, none⟩, ⟨[], (some [⟨[], 11706⟩]), 990⟩, some [.ret 11714 [.unary 11713 true (.compositeLit 11712
  [.basicLit 11711])]], 996, 1067⟩
/-- methods.go:67: `func Easy2` -/
def f6 : FuncDef := ⟨11733, some ⟨11721, s1, none⟩, ⟨[], (some [⟨[], 11723⟩]), 1142⟩, some [.ret 11731 [.unary 11730 true (.compositeLit 11729
  [.basicLit 11728])]], 1148, 1219⟩
/-- methods.go:74: `func Easy2` -/
def f7 : FuncDef := ⟨11750, some ⟨11738, s1, none⟩, ⟨[], (some [⟨[], 11740⟩]), 1294⟩, some [.ret 11748 [.unary 11747 true (.compositeLit 11746
  [.basicLit 11745])]], 1300, 1371⟩
/-- methods.go:79: `func methodA` -/
def f8 : FuncDef := ⟨11767, some ⟨11755, s2, none⟩, ⟨[], (some [⟨[], 11757⟩]), 1452⟩, some [.ret 11765 [.unary 11764 true (.compositeLit 11763
  [.basicLit 11762])]], 1458, 1487⟩
/-- methods.go:84: `func valueMethodA` -/
def f9 : FuncDef := ⟨11783, some ⟨11771, s3, none⟩, ⟨[], (some [⟨[], 11773⟩]), 1577⟩, some [.ret 11781 [.unary 11780 true (.compositeLit 11779
  [.basicLit 11778])]], 1583, 1618⟩
/-- methods.go:88: `func methodA` -/
def f10 : FuncDef := ⟨11800, some ⟨11788, s2, none⟩, ⟨[], (some [⟨[], 11790⟩]), 1640⟩, some [.ret 11798 [.unary 11797 true (.compositeLit 11796
  [.basicLit 11795])]], 1646, 1675⟩
/-- methods.go:92: `func valueMethodA` -/
def f11 : FuncDef := ⟨11816, some ⟨11804, s3, none⟩, ⟨[], (some [⟨[], 11806⟩]), 1701⟩, some [.ret 11814 [.unary 11813 true (.compositeLit 11812
  [.basicLit 11811])]], 1707, 1742⟩
/-- methods.go:96: `func methodB` -/
def f12 : FuncDef := ⟨11833, some ⟨11821, s4, none⟩, ⟨[], (some [⟨[], 11823⟩]), 1764⟩, some [.ret 11831 [.unary 11830 true (.compositeLit 11829
  [.basicLit 11828])]], 1770, 1799⟩
/-- methods.go:100: `func valueMethodB` -/
def f13 : FuncDef := ⟨11849, some ⟨11837, s5, none⟩, ⟨[], (some [⟨[], 11839⟩]), 1825⟩, some [.ret 11847 [.unary 11846 true (.compositeLit 11845
  [.basicLit 11844])]], 1831, 1866⟩
/-- methods.go:104: `func methodC` -/
def f14 : FuncDef := ⟨11866, some ⟨11854, s6, none⟩, ⟨[], (some [⟨[], 11856⟩]), 1888⟩, some [.ret 11864 [.unary 11863 true (.compositeLit 11862
  [.basicLit 11861])]], 1894, 1923⟩
/-- methods.go:108: `func valueMethodC` -/
def f15 : FuncDef := ⟨11882, some ⟨11870, s7, none⟩, ⟨[], (some [⟨[], 11872⟩]), 1949⟩, some [.ret 11880 [.unary 11879 true (.compositeLit 11878
  [.basicLit 11877])]], 1955, 1990⟩
/-- methods.go:113: `func methodA` -/
def f16 : FuncDef := ⟨11899, some ⟨11887, s2, none⟩, ⟨[], (some [⟨[], 11889⟩]), 2071⟩, some [.ret 11897 [.unary 11896 true (.compositeLit 11895
  [.basicLit 11894])]], 2077, 2106⟩
/-- methods.go:118: `func valueMethodA` -/
def f17 : FuncDef := ⟨11915, some ⟨11903, s3, none⟩, ⟨[], (some [⟨[], 11905⟩]), 2196⟩, some [.ret 11913 [.unary 11912 true (.compositeLit 11911
  [.basicLit 11910])]], 2202, 2237⟩
/-- methods.go:125: `func MethodCall` -/
def f18 : FuncDef := ⟨11933, some ⟨11921, s8, none⟩, ⟨[], (some [⟨[], 11923⟩]), 2297⟩, some [.ret 11931 [.call 11930 (.selector 11929 (.ident
  ⟨11927, s9, (some 12)⟩) ⟨11928, s2, none⟩) []]], 2303, 2367⟩
/-- methods.go:132: `func IndirectMethodCall` -/
def f19 : FuncDef := ⟨11950, some ⟨11938, s10, none⟩, ⟨[], (some [⟨[], 11940⟩]), 2434⟩, some [.ret 11948 [.call 11947 (.selector 11946 (.ident
  ⟨11944, s9, (some 13)⟩) ⟨11945, s2, none⟩) []]], 2440, 2512⟩
/-- methods.go:139: `func DereferencedMethodCall` -/
def f20 : FuncDef := ⟨11968, some ⟨11956, s11, none⟩, ⟨[], (some [⟨[], 11958⟩]), 2590⟩, some [.ret 11966 [.call 11965 (.selector 11964 (.ident
  ⟨11962, s9, (some 14)⟩) ⟨11963, s3, none⟩) []]], 2596, 2683⟩
/-- methods.go:148: `func PromotedCall` -/
def f21 : FuncDef := ⟨12006, some ⟨11974, s12, none⟩, ⟨[], (some [⟨[], 11976⟩]), 2783⟩, some [.other 12002 [.other 12001 [.caseClause 11986 [.ident
  ⟨11980, s13, none⟩] [.ret 11985 [.call 11984 (.selector 11983 (.ident ⟨11981, s14, (some 15)⟩) ⟨11982, s2, none⟩) []]], .caseClause 11993 [.ident
  ⟨11987, s13, none⟩] [.ret 11992 [.call 11991 (.selector 11990 (.ident ⟨11988, s14, (some 15)⟩) ⟨11989, s4, none⟩) []]], .caseClause 12000 [.ident
  ⟨11994, s13, none⟩] [.ret 11999 [.call 11998 (.selector 11997 (.ident ⟨11995, s14, (some 15)⟩) ⟨11996, s6, none⟩) []]]]], .ret 12004 [.ident
  ⟨12003, s15, none⟩]], 2789, 2975⟩
/-- methods.go:165: `func IndirectPromotedCall` -/
def f22 : FuncDef := ⟨12043, some ⟨12011, s16, none⟩, ⟨[], (some [⟨[], 12013⟩]), 3082⟩, some [.other 12039 [.other 12038 [.caseClause 12023 [.ident
  ⟨12017, s13, none⟩] [.ret 12022 [.call 12021 (.selector 12020 (.ident ⟨12018, s14, (some 16)⟩) ⟨12019, s2, none⟩) []]], .caseClause 12030 [.ident
  ⟨12024, s13, none⟩] [.ret 12029 [.call 12028 (.selector 12027 (.ident ⟨12025, s14, (some 16)⟩) ⟨12026, s4, none⟩) []]], .caseClause 12037 [.ident
  ⟨12031, s13, none⟩] [.ret 12036 [.call 12035 (.selector 12034 (.ident ⟨12032, s14, (some 16)⟩) ⟨12033, s6, none⟩) []]]]], .ret 12041 [.ident
  ⟨12040, s15, none⟩]], 3088, 3282⟩
/-- methods.go:182: `func DereferencedPromotedCall` -/
def f23 : FuncDef := ⟨12081, some ⟨12049, s17, none⟩, ⟨[], (some [⟨[], 12051⟩]), 3412⟩, some [.other 12077 [.other 12076 [.caseClause 12061 [.ident
  ⟨12055, s13, none⟩] [.ret 12060 [.call 12059 (.selector 12058 (.ident ⟨12056, s14, (some 17)⟩) ⟨12057, s3, none⟩) []]], .caseClause 12068 [.ident
  ⟨12062, s13, none⟩] [.ret 12067 [.call 12066 (.selector 12065 (.ident ⟨12063, s14, (some 17)⟩) ⟨12064, s5, none⟩) []]], .caseClause 12075 [.ident
  ⟨12069, s13, none⟩] [.ret 12074 [.call 12073 (.selector 12072 (.ident ⟨12070, s14, (some 17)⟩) ⟨12071, s7, none⟩) []]]]], .ret 12079 [.ident
  ⟨12078, s15, none⟩]], 3418, 3650⟩
/-- methods.go:201: `func FunctionCallingMethods` -/
def f24 : FuncDef := ⟨12136, some ⟨12082, s18, (some 18)⟩, ⟨[⟨[⟨12083, s9, (some 19)⟩], 12085⟩, ⟨[⟨12086, s19, (some 20)⟩], 12087⟩, ⟨[⟨12088, s14,
  (some 21)⟩], 12090⟩, ⟨[⟨12091, s20, (some 22)⟩], 12093⟩], (some [⟨[], 12099⟩]), 3793⟩, some [.other 12132 [.other 12131 [.caseClause 12109 [.ident
  ⟨12103, s13, none⟩] [.ret 12108 [.call 12107 (.selector 12106 (.ident ⟨12104, s9, (some 19)⟩) ⟨12105, s2, none⟩) []]], .caseClause 12116 [.ident
  ⟨12110, s13, none⟩] [.ret 12115 [.call 12114 (.selector 12113 (.ident ⟨12111, s19, (some 20)⟩) ⟨12112, s4, none⟩) []]], .caseClause 12123 [.ident
  ⟨12117, s13, none⟩] [.ret 12122 [.call 12121 (.selector 12120 (.ident ⟨12118, s14, (some 21)⟩) ⟨12119, s6, none⟩) []]], .caseClause 12130 [.ident
  ⟨12124, s13, none⟩] [.ret 12129 [.call 12128 (.selector 12127 (.ident ⟨12125, s20, (some 22)⟩) ⟨12126, s2, none⟩) []]]]], .ret 12134 [.ident
  ⟨12133, s15, none⟩]], 3799, 4036⟩
/-- methods.go:220: `func ArrayMethodCall` -/
def f25 : FuncDef := ⟨12183, some ⟨12137, s21, (some 23)⟩, ⟨[⟨[⟨12138, s22, (some 24)⟩], 12140⟩], (some [⟨[], 12143⟩]), 4138⟩, some [.other 12179
  [.other 12178 [.caseClause 12155 [.ident ⟨12147, s13, none⟩] [.ret 12154 [.call 12153 (.selector 12152 (.index 12150 (.ident ⟨12148, s22, (some
  24)⟩) (.basicLit 12149)) ⟨12151, s2, none⟩) []]], .caseClause 12164 [.ident ⟨12156, s13, none⟩] [.ret 12163 [.call 12162 (.selector 12161 (.index
  12159 (.ident ⟨12157, s22, (some 24)⟩) (.basicLit 12158)) ⟨12160, s4, none⟩) []]], .caseClause 12177 [.ident ⟨12165, s13, none⟩] [.range 12176
  (some (.ident ⟨12166, s23, (some 25)⟩)) (some (.ident ⟨12167, s14, (some 26)⟩)) (.ident ⟨12168, s22, (some 24)⟩) [.ret 12174 [.call 12173
  (.selector 12172 (.ident ⟨12170, s14, (some 26)⟩) ⟨12171, s6, none⟩) []]]]]], .ret 12181 [.ident ⟨12180, s15, none⟩]], 4144, 4371⟩
/-- methods.go:237: `func Struct` -/
def f26 : FuncDef := ⟨12206, some ⟨12184, s24, (some 27)⟩, ⟨[⟨[⟨12185, s25, (some 28)⟩], 12191⟩], (some [⟨[], 12194⟩]), 4436⟩, some [.ret 12204
  [.call 12203 (.selector 12202 (.selector 12200 (.ident ⟨12198, s25, (some 28)⟩) ⟨12199, s26, none⟩) ⟨12201, s2, none⟩) []]], 4442, 4504⟩
/-- methods.go:244: `func MultipleResults` -/
def f27 : FuncDef := ⟨12233, some ⟨12212, s27, none⟩, ⟨[], (some [⟨[], 12215⟩, ⟨[], 12216⟩, ⟨[], 12217⟩]), 4569⟩, some [.ret 12231 [.ident ⟨12223,
  s14, (some 30)⟩, .selector 12226 (.ident ⟨12224, s14, (some 30)⟩) ⟨12225, s28, none⟩, .call 12230 (.selector 12229 (.ident ⟨12227, s14, (some
  30)⟩) ⟨12228, s6, none⟩) []]], 4584, 4661⟩
/-- methods.go:252: `func CallMultipleResults` -/
def f28 : FuncDef := ⟨12266, some ⟨12234, s29, (some 31)⟩, ⟨[⟨[⟨12235, s14, (some 32)⟩], 12237⟩], (some [⟨[], 12240⟩]), 4746⟩, some [.assign 12251
  [.ident ⟨12244, s23, (some 33)⟩, .ident ⟨12245, s9, (some 34)⟩, .ident ⟨12246, s30, (some 35)⟩] [.call 12250 (.selector 12249 (.ident ⟨12247, s14,
  (some 32)⟩) ⟨12248, s27, none⟩) []], .other 12259 [.other 12254 [.ident ⟨12252, s30, (some 35)⟩, .ident ⟨12253, s15, none⟩], .other 12258 [.ret
  12257 [.ident ⟨12256, s30, (some 35)⟩]]], .ret 12264 [.call 12263 (.selector 12262 (.ident ⟨12260, s9, (some 34)⟩) ⟨12261, s2, none⟩) []]], 4752,
  4901⟩
/-- methods.go:261: `func self` -/
def f29 : FuncDef := ⟨12282, some ⟨12272, s31, none⟩, ⟨[], (some [⟨[], 12275⟩]), 4922⟩, some [.ret 12280 [.ident ⟨12279, s14, (some 36)⟩]], 4925,
  4938⟩
/-- methods.go:268: `func Chained` -/
def f30 : FuncDef := ⟨12312, some ⟨12288, s32, none⟩, ⟨[], (some [⟨[], 12290⟩]), 4995⟩, some [.ret 12310 [.call 12309 (.selector 12308 (.call 12306
  (.selector 12305 (.call 12303 (.selector 12302 (.call 12300 (.selector 12299 (.call 12297 (.selector 12296 (.ident ⟨12294, s14, (some 37)⟩)
  ⟨12295, s31, none⟩) []) ⟨12298, s31, none⟩) []) ⟨12301, s31, none⟩) []) ⟨12304, s31, none⟩) []) ⟨12307, s2, none⟩) []]], 5001, 5090⟩
/-- methods.go:276: `func Code` -/
def f31 : FuncDef := ⟨12337, some ⟨12326, s33, none⟩, ⟨[], (some [⟨[], 12328⟩]), 5224⟩, some [.ret 12335 [.selector 12334 (.ident ⟨12332, s34, (some
  39)⟩) ⟨12333, s35, none⟩]], 5245, 5265⟩
/-- methods.go:277: `func Message` -/
def f32 : FuncDef := ⟨12354, some ⟨12343, s36, none⟩, ⟨[], (some [⟨[], 12345⟩]), 5292⟩, some [.ret 12352 [.selector 12351 (.ident ⟨12349, s34, (some
  40)⟩) ⟨12350, s35, none⟩]], 5310, 5330⟩
/-- methods.go:278: `func Details` -/
def f33 : FuncDef := ⟨12371, some ⟨12360, s37, none⟩, ⟨[], (some [⟨[], 12364⟩]), 5357⟩, some [.ret 12369 [.ident ⟨12368, s15, none⟩]], 5375, 5389⟩
/-- methods.go:279: `func Cause` -/
def f34 : FuncDef := ⟨12386, some ⟨12377, s38, none⟩, ⟨[], (some [⟨[], 12379⟩]), 5414⟩, some [.ret 12384 [.ident ⟨12383, s15, none⟩]], 5434, 5448⟩
/-- methods.go:280: `func Error` -/
def f35 : FuncDef := ⟨12404, some ⟨12392, s39, none⟩, ⟨[], (some [⟨[], 12394⟩]), 5473⟩, some [.ret 12402 [.call 12401 (.selector 12400 (.ident
  ⟨12398, s34, (some 43)⟩) ⟨12399, s36, none⟩) []]], 5493, 5515⟩
/-- The objects of go/ast, in the order of their numbers. -/
def objects : List ObjInfo := [
  ⟨.typ, 25, .typeSpec⟩,
  ⟨.typ, 35, .typeSpec⟩,
  ⟨.typ, 47, .typeSpec⟩,
  ⟨.var, 60, .other⟩,
  ⟨.var, 63, .other⟩,
  ⟨.typ, 76, .typeSpec⟩,
  ⟨.typ, 103, .typeSpec⟩,
  ⟨.typ, 113, .typeSpec⟩,
  ⟨.typ, 125, .typeSpec⟩,
  ⟨.var, 138, .other⟩,
  ⟨.var, 146, .other⟩,
  ⟨.typ, 5097, .typeSpec⟩,
  ⟨.var, 2278, .other⟩,
  ⟨.var, 2408, .other⟩,
  ⟨.var, 2559, .other⟩,
  ⟨.var, 2762, .other⟩,
  ⟨.var, 3054, .other⟩,
  ⟨.var, 3379, .other⟩,
  ⟨.fun_, 3747, (.funcDecl 24)⟩,
  ⟨.var, 3770, .other⟩,
  ⟨.var, 3776, .other⟩,
  ⟨.var, 3781, .other⟩,
  ⟨.var, 3787, .other⟩,
  ⟨.fun_, 4114, (.funcDecl 25)⟩,
  ⟨.var, 4130, .other⟩,
  ⟨.var, 4310, .other⟩,
  ⟨.var, 4313, .other⟩,
  ⟨.fun_, 4411, (.funcDecl 26)⟩,
  ⟨.var, 4418, .other⟩,
  ⟨.var, 4429, .other⟩,
  ⟨.var, 4545, .other⟩,
  ⟨.fun_, 4720, (.funcDecl 28)⟩,
  ⟨.var, 4740, .other⟩,
  ⟨.var, 4813, .other⟩,
  ⟨.var, 4816, .other⟩,
  ⟨.var, 4819, .other⟩,
  ⟨.var, 4909, .other⟩,
  ⟨.var, 4979, .other⟩,
  ⟨.var, 5183, .other⟩,
  ⟨.var, 5207, .other⟩,
  ⟨.var, 5272, .other⟩,
  ⟨.var, 5337, .other⟩,
  ⟨.var, 5396, .other⟩,
  ⟨.var, 5455, .other⟩]
/-- Types of expressions (`Info.Types`, `Info.Defs`, `Info.Uses`). -/
def typeTable : Tree GoType := (.node (.node (.node (.node (.node (.node (.node (.node (.node Tree.nil 11576 (.named 1113) Tree.nil) 11577 (.string)
  (.node Tree.nil 11579 (.named 1114) Tree.nil)) 11581 (.struct 2) (.node (.node Tree.nil 11583 (.named 1115) Tree.nil) 11584 (.string) (.node
  Tree.nil 11585 (.string) Tree.nil))) 11586 (.string) (.node (.node (.node Tree.nil 11589 (.struct 131) Tree.nil) 11591 (.named 1116) (.node
  Tree.nil 11592 (.named 1113) Tree.nil)) 11594 (.named 1114) (.node (.node Tree.nil 11596 (.named 1115) Tree.nil) 11599 (.struct 130) Tree.nil)))
  11601 (.named 1117) (.node (.node (.node (.node Tree.nil 11602 (.string) Tree.nil) 11604 (.named 1118) (.node Tree.nil 11606 (.struct 2)
  Tree.nil)) 11608 (.named 1119) (.node (.node Tree.nil 11609 (.other 8) Tree.nil) 11610 (.other 8) (.node Tree.nil 11612 (.string) Tree.nil)))
  11613 (.string) (.node (.node (.node Tree.nil 11616 (.struct 132) Tree.nil) 11619 (.named 1113) (.node Tree.nil 11622 (.signature 6) Tree.nil))
  11624 (.named 19) (.node (.node Tree.nil 11627 (.signature 6) Tree.nil) 11628 (.named 1151) Tree.nil)))) 11629 (.string) (.node (.node (.node
  (.node (.node Tree.nil 11630 (.named 1151) Tree.nil) 11631 (.pointer (.named 1151)) (.node Tree.nil 11635 (.named 1114) Tree.nil)) 11638
  (.signature 6) (.node (.node Tree.nil 11640 (.named 19) Tree.nil) 11643 (.signature 6) (.node Tree.nil 11644 (.named 1151) Tree.nil))) 11645
  (.string) (.node (.node (.node Tree.nil 11646 (.named 1151) Tree.nil) 11647 (.pointer (.named 1151)) (.node Tree.nil 11651 (.named 1115)
  Tree.nil)) 11654 (.signature 6) (.node (.node Tree.nil 11656 (.named 19) Tree.nil) 11659 (.signature 6) Tree.nil))) 11660 (.named 1151) (.node
  (.node (.node (.node Tree.nil 11661 (.string) Tree.nil) 11662 (.named 1151) (.node Tree.nil 11663 (.pointer (.named 1151)) Tree.nil)) 11667
  (.named 1116) (.node (.node Tree.nil 11670 (.signature 6) Tree.nil) 11672 (.named 19) Tree.nil)) 11675 (.signature 6) (.node (.node (.node
  Tree.nil 11676 (.named 1151) Tree.nil) 11677 (.string) (.node Tree.nil 11678 (.named 1151) Tree.nil)) 11679 (.pointer (.named 1151)) (.node (.node
  Tree.nil 11683 (.named 1113) Tree.nil) 11684 (.pointer (.named 1113)) Tree.nil))))) 11687 (.signature 6) (.node (.node (.node (.node (.node (.node
  Tree.nil 11689 (.named 19) Tree.nil) 11692 (.signature 6) (.node Tree.nil 11693 (.named 1151) Tree.nil)) 11694 (.string) (.node (.node Tree.nil
  11695 (.named 1151) Tree.nil) 11696 (.pointer (.named 1151)) (.node Tree.nil 11700 (.named 1114) Tree.nil))) 11701 (.pointer (.named 1114)) (.node
  (.node (.node Tree.nil 11704 (.signature 6) Tree.nil) 11706 (.named 19) (.node Tree.nil 11709 (.signature 6) Tree.nil)) 11710 (.named 1151) (.node
  (.node Tree.nil 11711 (.string) Tree.nil) 11712 (.named 1151) Tree.nil))) 11713 (.pointer (.named 1151)) (.node (.node (.node (.node Tree.nil
  11717 (.named 1115) Tree.nil) 11718 (.pointer (.named 1115)) (.node Tree.nil 11721 (.signature 6) Tree.nil)) 11723 (.named 19) (.node (.node
  Tree.nil 11726 (.signature 6) Tree.nil) 11727 (.named 1151) Tree.nil)) 11728 (.string) (.node (.node (.node Tree.nil 11729 (.named 1151) Tree.nil)
  11730 (.pointer (.named 1151)) (.node Tree.nil 11734 (.named 1116) Tree.nil)) 11735 (.pointer (.named 1116)) (.node (.node Tree.nil 11738
  (.signature 6) Tree.nil) 11740 (.named 19) Tree.nil)))) 11743 (.signature 6) (.node (.node (.node (.node (.node Tree.nil 11744 (.named 1151)
  Tree.nil) 11745 (.string) (.node Tree.nil 11746 (.named 1151) Tree.nil)) 11747 (.pointer (.named 1151)) (.node (.node Tree.nil 11751 (.named 1117)
  Tree.nil) 11752 (.pointer (.named 1117)) (.node Tree.nil 11755 (.signature 6) Tree.nil))) 11757 (.named 19) (.node (.node (.node Tree.nil 11760
  (.signature 6) Tree.nil) 11761 (.named 1151) (.node Tree.nil 11762 (.string) Tree.nil)) 11763 (.named 1151) (.node (.node Tree.nil 11764 (.pointer
  (.named 1151)) Tree.nil) 11768 (.named 1117) Tree.nil))) 11771 (.signature 6) (.node (.node (.node (.node Tree.nil 11773 (.named 19) Tree.nil)
  11776 (.signature 6) (.node Tree.nil 11777 (.named 1151) Tree.nil)) 11778 (.string) (.node (.node Tree.nil 11779 (.named 1151) Tree.nil) 11780
  (.pointer (.named 1151)) Tree.nil)) 11784 (.named 1113) (.node (.node (.node Tree.nil 11785 (.pointer (.named 1113)) Tree.nil) 11788 (.signature
  6) (.node Tree.nil 11790 (.named 19) Tree.nil)) 11793 (.signature 6) (.node (.node Tree.nil 11794 (.named 1151) Tree.nil) 11795 (.string)
  Tree.nil)))))) 11796 (.named 1151) (.node (.node (.node (.node (.node (.node (.node Tree.nil 11797 (.pointer (.named 1151)) Tree.nil) 11801
  (.named 1113) (.node Tree.nil 11804 (.signature 6) Tree.nil)) 11806 (.named 19) (.node (.node Tree.nil 11809 (.signature 6) Tree.nil) 11810
  (.named 1151) (.node Tree.nil 11811 (.string) Tree.nil))) 11812 (.named 1151) (.node (.node (.node Tree.nil 11813 (.pointer (.named 1151))
  Tree.nil) 11817 (.named 1114) (.node Tree.nil 11818 (.pointer (.named 1114)) Tree.nil)) 11821 (.signature 6) (.node (.node Tree.nil 11823 (.named
  19) Tree.nil) 11826 (.signature 6) Tree.nil))) 11827 (.named 1151) (.node (.node (.node (.node Tree.nil 11828 (.string) Tree.nil) 11829 (.named
  1151) (.node Tree.nil 11830 (.pointer (.named 1151)) Tree.nil)) 11834 (.named 1114) (.node (.node Tree.nil 11837 (.signature 6) Tree.nil) 11839
  (.named 19) Tree.nil)) 11842 (.signature 6) (.node (.node (.node Tree.nil 11843 (.named 1151) Tree.nil) 11844 (.string) (.node Tree.nil 11845
  (.named 1151) Tree.nil)) 11846 (.pointer (.named 1151)) (.node (.node Tree.nil 11850 (.named 1115) Tree.nil) 11851 (.pointer (.named 1115))
  Tree.nil)))) 11854 (.signature 6) (.node (.node (.node (.node (.node Tree.nil 11856 (.named 19) Tree.nil) 11859 (.signature 6) (.node Tree.nil
  11860 (.named 1151) Tree.nil)) 11861 (.string) (.node (.node Tree.nil 11862 (.named 1151) Tree.nil) 11863 (.pointer (.named 1151)) (.node Tree.nil
  11867 (.named 1115) Tree.nil))) 11870 (.signature 6) (.node (.node (.node Tree.nil 11872 (.named 19) Tree.nil) 11875 (.signature 6) (.node
  Tree.nil 11876 (.named 1151) Tree.nil)) 11877 (.string) (.node (.node Tree.nil 11878 (.named 1151) Tree.nil) 11879 (.pointer (.named 1151))
  Tree.nil))) 11883 (.named 1118) (.node (.node (.node (.node Tree.nil 11884 (.pointer (.named 1118)) Tree.nil) 11887 (.signature 6) (.node Tree.nil
  11889 (.named 19) Tree.nil)) 11892 (.signature 6) (.node (.node Tree.nil 11893 (.named 1151) Tree.nil) 11894 (.string) Tree.nil)) 11895 (.named
  1151) (.node (.node (.node Tree.nil 11896 (.pointer (.named 1151)) Tree.nil) 11900 (.named 1118) (.node Tree.nil 11903 (.signature 6) Tree.nil))
  11905 (.named 19) (.node (.node Tree.nil 11908 (.signature 6) Tree.nil) 11909 (.named 1151) Tree.nil))))) 11910 (.string) (.node (.node (.node
  (.node (.node (.node Tree.nil 11911 (.named 1151) Tree.nil) 11912 (.pointer (.named 1151)) (.node Tree.nil 11916 (.pointer (.named 1113))
  Tree.nil)) 11917 (.named 1113) (.node (.node Tree.nil 11918 (.pointer (.named 1113)) Tree.nil) 11921 (.signature 6) (.node Tree.nil 11923 (.named
  19) Tree.nil))) 11926 (.signature 6) (.node (.node (.node Tree.nil 11927 (.pointer (.named 1113)) Tree.nil) 11928 (.signature 6) (.node Tree.nil
  11929 (.signature 6) Tree.nil)) 11930 (.named 19) (.node (.node Tree.nil 11934 (.named 1113) Tree.nil) 11935 (.named 1113) Tree.nil))) 11938
  (.signature 6) (.node (.node (.node (.node Tree.nil 11940 (.named 19) Tree.nil) 11943 (.signature 6) (.node Tree.nil 11944 (.named 1113)
  Tree.nil)) 11945 (.signature 6) (.node (.node Tree.nil 11946 (.signature 6) Tree.nil) 11947 (.named 19) Tree.nil)) 11951 (.pointer (.named 1113))
  (.node (.node (.node Tree.nil 11952 (.named 1113) Tree.nil) 11953 (.pointer (.named 1113)) (.node Tree.nil 11956 (.signature 6) Tree.nil)) 11958
  (.named 19) (.node (.node Tree.nil 11961 (.signature 6) Tree.nil) 11962 (.pointer (.named 1113)) Tree.nil)))) 11963 (.signature 6) (.node (.node
  (.node (.node (.node Tree.nil 11964 (.signature 6) Tree.nil) 11965 (.named 19) (.node Tree.nil 11969 (.pointer (.named 1116)) Tree.nil)) 11970
  (.named 1116) (.node (.node Tree.nil 11971 (.pointer (.named 1116)) Tree.nil) 11974 (.signature 6) (.node Tree.nil 11976 (.named 19) Tree.nil)))
  11979 (.signature 6) (.node (.node (.node Tree.nil 11980 (.other 10) Tree.nil) 11981 (.pointer (.named 1116)) (.node Tree.nil 11982 (.signature 6)
  Tree.nil)) 11983 (.signature 6) (.node (.node Tree.nil 11984 (.named 19) Tree.nil) 11987 (.other 10) Tree.nil))) 11988 (.pointer (.named 1116))
  (.node (.node (.node (.node Tree.nil 11989 (.signature 6) Tree.nil) 11990 (.signature 6) (.node Tree.nil 11991 (.named 19) Tree.nil)) 11994
  (.other 10) (.node (.node Tree.nil 11995 (.pointer (.named 1116)) Tree.nil) 11996 (.signature 6) Tree.nil)) 11997 (.signature 6) (.node (.node
  (.node Tree.nil 11998 (.named 19) Tree.nil) 12003 (.untypedNil) (.node Tree.nil 12007 (.named 1116) Tree.nil)) 12008 (.named 1116) (.node (.node
  Tree.nil 12011 (.signature 6) Tree.nil) 12013 (.named 19) Tree.nil))))))) 12016 (.signature 6) (.node (.node (.node (.node (.node (.node (.node
  (.node Tree.nil 12017 (.other 10) Tree.nil) 12018 (.named 1116) (.node Tree.nil 12019 (.signature 6) Tree.nil)) 12020 (.signature 6) (.node (.node
  Tree.nil 12021 (.named 19) Tree.nil) 12024 (.other 10) (.node Tree.nil 12025 (.named 1116) Tree.nil))) 12026 (.signature 6) (.node (.node (.node
  Tree.nil 12027 (.signature 6) Tree.nil) 12028 (.named 19) (.node Tree.nil 12031 (.other 10) Tree.nil)) 12032 (.named 1116) (.node (.node Tree.nil
  12033 (.signature 6) Tree.nil) 12034 (.signature 6) Tree.nil))) 12035 (.named 19) (.node (.node (.node (.node Tree.nil 12040 (.untypedNil)
  Tree.nil) 12044 (.pointer (.named 1116)) (.node Tree.nil 12045 (.named 1116) Tree.nil)) 12046 (.pointer (.named 1116)) (.node (.node Tree.nil
  12049 (.signature 6) Tree.nil) 12051 (.named 19) (.node Tree.nil 12054 (.signature 6) Tree.nil))) 12055 (.other 10) (.node (.node (.node Tree.nil
  12056 (.pointer (.named 1116)) Tree.nil) 12057 (.signature 6) (.node Tree.nil 12058 (.signature 6) Tree.nil)) 12059 (.named 19) (.node (.node
  Tree.nil 12062 (.other 10) Tree.nil) 12063 (.pointer (.named 1116)) Tree.nil)))) 12064 (.signature 6) (.node (.node (.node (.node (.node Tree.nil
  12065 (.signature 6) Tree.nil) 12066 (.named 19) (.node Tree.nil 12069 (.other 10) Tree.nil)) 12070 (.pointer (.named 1116)) (.node (.node
  Tree.nil 12071 (.signature 6) Tree.nil) 12072 (.signature 6) (.node Tree.nil 12073 (.named 19) Tree.nil))) 12078 (.untypedNil) (.node (.node
  (.node Tree.nil 12082 (.signature 133) Tree.nil) 12083 (.pointer (.named 1113)) (.node Tree.nil 12084 (.named 1113) Tree.nil)) 12085 (.pointer
  (.named 1113)) (.node (.node Tree.nil 12086 (.named 1114) Tree.nil) 12087 (.named 1114) Tree.nil))) 12088 (.pointer (.named 1116)) (.node (.node
  (.node (.node Tree.nil 12089 (.named 1116) Tree.nil) 12090 (.pointer (.named 1116)) (.node Tree.nil 12091 (.pointer (.named 1117)) Tree.nil))
  12092 (.named 1117) (.node (.node Tree.nil 12093 (.pointer (.named 1117)) Tree.nil) 12099 (.named 19) Tree.nil)) 12102 (.signature 133) (.node
  (.node (.node Tree.nil 12103 (.other 10) Tree.nil) 12104 (.pointer (.named 1113)) (.node Tree.nil 12105 (.signature 6) Tree.nil)) 12106
  (.signature 6) (.node (.node Tree.nil 12107 (.named 19) Tree.nil) 12110 (.other 10) Tree.nil))))) 12111 (.named 1114) (.node (.node (.node (.node
  (.node (.node Tree.nil 12112 (.signature 6) Tree.nil) 12113 (.signature 6) (.node Tree.nil 12114 (.named 19) Tree.nil)) 12117 (.other 10) (.node
  (.node Tree.nil 12118 (.pointer (.named 1116)) Tree.nil) 12119 (.signature 6) (.node Tree.nil 12120 (.signature 6) Tree.nil))) 12121 (.named 19)
  (.node (.node (.node Tree.nil 12124 (.other 10) Tree.nil) 12125 (.pointer (.named 1117)) (.node Tree.nil 12126 (.signature 6) Tree.nil)) 12127
  (.signature 6) (.node (.node Tree.nil 12128 (.named 19) Tree.nil) 12133 (.untypedNil) Tree.nil))) 12137 (.signature 134) (.node (.node (.node
  (.node Tree.nil 12138 (.slice (.named 1116)) Tree.nil) 12139 (.named 1116) (.node Tree.nil 12140 (.slice (.named 1116)) Tree.nil)) 12143 (.named
  19) (.node (.node Tree.nil 12146 (.signature 134) Tree.nil) 12147 (.other 10) Tree.nil)) 12148 (.slice (.named 1116)) (.node (.node (.node
  Tree.nil 12149 (.other 8) Tree.nil) 12150 (.named 1116) (.node Tree.nil 12151 (.signature 6) Tree.nil)) 12152 (.signature 6) (.node (.node
  Tree.nil 12153 (.named 19) Tree.nil) 12156 (.other 10) Tree.nil)))) 12157 (.slice (.named 1116)) (.node (.node (.node (.node (.node Tree.nil 12158
  (.other 8) Tree.nil) 12159 (.named 1116) (.node Tree.nil 12160 (.signature 6) Tree.nil)) 12161 (.signature 6) (.node (.node Tree.nil 12162 (.named
  19) Tree.nil) 12165 (.other 10) (.node Tree.nil 12166 (.other 8) Tree.nil))) 12167 (.named 1116) (.node (.node (.node Tree.nil 12168 (.slice
  (.named 1116)) Tree.nil) 12170 (.named 1116) (.node Tree.nil 12171 (.signature 6) Tree.nil)) 12172 (.signature 6) (.node (.node Tree.nil 12173
  (.named 19) Tree.nil) 12180 (.untypedNil) Tree.nil))) 12184 (.signature 135) (.node (.node (.node (.node Tree.nil 12185 (.pointer (.struct 129))
  Tree.nil) 12186 (.named 1116) (.node Tree.nil 12187 (.named 1116) Tree.nil)) 12190 (.struct 129) (.node (.node Tree.nil 12191 (.pointer (.struct
  129)) Tree.nil) 12194 (.named 19) Tree.nil)) 12197 (.signature 135) (.node (.node (.node Tree.nil 12198 (.pointer (.struct 129)) Tree.nil) 12199
  (.named 1116) (.node Tree.nil 12200 (.named 1116) Tree.nil)) 12201 (.signature 6) (.node (.node Tree.nil 12202 (.signature 6) Tree.nil) 12203
  (.named 19) Tree.nil)))))) 12207 (.pointer (.named 1116)) (.node (.node (.node (.node (.node (.node (.node Tree.nil 12208 (.named 1116) Tree.nil)
  12209 (.pointer (.named 1116)) (.node Tree.nil 12212 (.signature 136) Tree.nil)) 12214 (.named 1116) (.node (.node Tree.nil 12215 (.pointer
  (.named 1116)) Tree.nil) 12216 (.named 1113) (.node Tree.nil 12217 (.named 19) Tree.nil))) 12222 (.signature 136) (.node (.node (.node Tree.nil
  12223 (.pointer (.named 1116)) Tree.nil) 12224 (.pointer (.named 1116)) (.node Tree.nil 12225 (.named 1113) Tree.nil)) 12226 (.named 1113) (.node
  (.node Tree.nil 12227 (.pointer (.named 1116)) Tree.nil) 12228 (.signature 6) Tree.nil))) 12229 (.signature 6) (.node (.node (.node (.node
  Tree.nil 12230 (.named 19) Tree.nil) 12234 (.signature 137) (.node Tree.nil 12235 (.pointer (.named 1116)) Tree.nil)) 12236 (.named 1116) (.node
  (.node Tree.nil 12237 (.pointer (.named 1116)) Tree.nil) 12240 (.named 19) Tree.nil)) 12243 (.signature 137) (.node (.node (.node Tree.nil 12244
  (.pointer (.named 1116)) Tree.nil) 12245 (.named 1113) (.node Tree.nil 12246 (.named 19) Tree.nil)) 12247 (.pointer (.named 1116)) (.node (.node
  Tree.nil 12248 (.signature 136) Tree.nil) 12249 (.signature 136) Tree.nil)))) 12250 (.tuple 138) (.node (.node (.node (.node (.node Tree.nil 12252
  (.named 19) Tree.nil) 12253 (.untypedNil) (.node Tree.nil 12254 (.other 10) Tree.nil)) 12256 (.named 19) (.node (.node Tree.nil 12260 (.named
  1113) Tree.nil) 12261 (.signature 6) (.node Tree.nil 12262 (.signature 6) Tree.nil))) 12263 (.named 19) (.node (.node (.node Tree.nil 12267
  (.pointer (.named 1116)) Tree.nil) 12268 (.named 1116) (.node Tree.nil 12269 (.pointer (.named 1116)) Tree.nil)) 12272 (.signature 139) (.node
  (.node Tree.nil 12274 (.named 1116) Tree.nil) 12275 (.pointer (.named 1116)) Tree.nil))) 12278 (.signature 139) (.node (.node (.node (.node
  Tree.nil 12279 (.pointer (.named 1116)) Tree.nil) 12283 (.pointer (.named 1116)) (.node Tree.nil 12284 (.named 1116) Tree.nil)) 12285 (.pointer
  (.named 1116)) (.node (.node Tree.nil 12288 (.signature 6) Tree.nil) 12290 (.named 19) Tree.nil)) 12293 (.signature 6) (.node (.node (.node
  Tree.nil 12294 (.pointer (.named 1116)) Tree.nil) 12295 (.signature 139) (.node Tree.nil 12296 (.signature 139) Tree.nil)) 12297 (.pointer (.named
  1116)) (.node (.node Tree.nil 12298 (.signature 139) Tree.nil) 12299 (.signature 139) Tree.nil))))) 12300 (.pointer (.named 1116)) (.node (.node
  (.node (.node (.node (.node Tree.nil 12301 (.signature 139) Tree.nil) 12302 (.signature 139) (.node Tree.nil 12303 (.pointer (.named 1116))
  Tree.nil)) 12304 (.signature 139) (.node (.node Tree.nil 12305 (.signature 139) Tree.nil) 12306 (.pointer (.named 1116)) (.node Tree.nil 12307
  (.signature 6) Tree.nil))) 12308 (.signature 6) (.node (.node (.node Tree.nil 12309 (.named 19) Tree.nil) 12313 (.named 1151) (.node Tree.nil
  12314 (.string) Tree.nil)) 12315 (.string) (.node (.node Tree.nil 12318 (.struct 1) Tree.nil) 12321 (.pointer (.named 1151)) Tree.nil))) 12322
  (.named 1151) (.node (.node (.node (.node Tree.nil 12323 (.pointer (.named 1151)) Tree.nil) 12326 (.signature 11) (.node Tree.nil 12328 (.string)
  Tree.nil)) 12331 (.signature 11) (.node (.node Tree.nil 12332 (.pointer (.named 1151)) Tree.nil) 12333 (.string) Tree.nil)) 12334 (.string) (.node
  (.node (.node Tree.nil 12338 (.pointer (.named 1151)) Tree.nil) 12339 (.named 1151) (.node Tree.nil 12340 (.pointer (.named 1151)) Tree.nil))
  12343 (.signature 11) (.node (.node Tree.nil 12345 (.string) Tree.nil) 12348 (.signature 11) Tree.nil)))) 12349 (.pointer (.named 1151)) (.node
  (.node (.node (.node (.node Tree.nil 12350 (.string) Tree.nil) 12351 (.string) (.node Tree.nil 12355 (.pointer (.named 1151)) Tree.nil)) 12356
  (.named 1151) (.node (.node Tree.nil 12357 (.pointer (.named 1151)) Tree.nil) 12360 (.signature 23) (.node Tree.nil 12362 (.string) Tree.nil)))
  12363 (.string) (.node (.node (.node Tree.nil 12364 (.map (.string) (.string)) Tree.nil) 12367 (.signature 23) (.node Tree.nil 12368 (.untypedNil)
  Tree.nil)) 12372 (.pointer (.named 1151)) (.node (.node Tree.nil 12373 (.named 1151) Tree.nil) 12374 (.pointer (.named 1151)) Tree.nil))) 12377
  (.signature 6) (.node (.node (.node (.node Tree.nil 12379 (.named 19) Tree.nil) 12382 (.signature 6) (.node Tree.nil 12383 (.untypedNil)
  Tree.nil)) 12387 (.pointer (.named 1151)) (.node (.node Tree.nil 12388 (.named 1151) Tree.nil) 12389 (.pointer (.named 1151)) Tree.nil)) 12392
  (.signature 11) (.node (.node (.node Tree.nil 12394 (.string) Tree.nil) 12397 (.signature 11) (.node Tree.nil 12398 (.pointer (.named 1151))
  Tree.nil)) 12399 (.signature 11) (.node (.node Tree.nil 12400 (.signature 11) Tree.nil) 12401 (.string) Tree.nil))))))))
/-- Constant values of expressions. -/
def valueTable : Tree Const := (.node (.node (.node (.node (.node (.node Tree.nil 11629 (.str s40) Tree.nil) 11645 (.str s40) Tree.nil) 11661 (.str
  s40) (.node Tree.nil 11677 (.str s40) Tree.nil)) 11694 (.str s40) (.node (.node (.node Tree.nil 11711 (.str s40) Tree.nil) 11728 (.str s40)
  Tree.nil) 11745 (.str s40) (.node Tree.nil 11762 (.str s41) Tree.nil))) 11778 (.str s42) (.node (.node (.node (.node Tree.nil 11795 (.str s43)
  Tree.nil) 11811 (.str s44) Tree.nil) 11828 (.str s45) (.node Tree.nil 11844 (.str s46) Tree.nil)) 11861 (.str s47) (.node (.node Tree.nil 11877
  (.str s48) Tree.nil) 11894 (.str s49) (.node Tree.nil 11910 (.str s50) Tree.nil)))) 11980 (.other) (.node (.node (.node (.node (.node Tree.nil
  11987 (.other) Tree.nil) 11994 (.other) Tree.nil) 12017 (.other) (.node Tree.nil 12024 (.other) Tree.nil)) 12031 (.other) (.node (.node Tree.nil
  12055 (.other) Tree.nil) 12062 (.other) (.node Tree.nil 12069 (.other) Tree.nil))) 12103 (.other) (.node (.node (.node (.node Tree.nil 12110
  (.other) Tree.nil) 12117 (.other) Tree.nil) 12124 (.other) (.node Tree.nil 12147 (.other) Tree.nil)) 12149 (.other) (.node (.node Tree.nil 12156
  (.other) Tree.nil) 12158 (.other) (.node Tree.nil 12165 (.other) Tree.nil)))))
/-- `typeutil.Callee` of call expressions. -/
def calleeTable : Tree Nat := (.node (.node (.node (.node (.node Tree.nil 11930 (1130) Tree.nil) 11947 (1130) (.node Tree.nil 11965 (1131)
  Tree.nil)) 11984 (1130) (.node (.node Tree.nil 11991 (1132) Tree.nil) 11998 (1134) (.node Tree.nil 12021 (1130) Tree.nil))) 12028 (1132) (.node
  (.node (.node Tree.nil 12035 (1134) Tree.nil) 12059 (1131) (.node Tree.nil 12066 (1133) Tree.nil)) 12073 (1135) (.node (.node Tree.nil 12107
  (1130) Tree.nil) 12114 (1132) Tree.nil))) 12121 (1134) (.node (.node (.node (.node Tree.nil 12128 (1128) Tree.nil) 12153 (1130) (.node Tree.nil
  12162 (1132) Tree.nil)) 12173 (1134) (.node (.node Tree.nil 12203 (1130) Tree.nil) 12230 (1134) (.node Tree.nil 12250 (1147) Tree.nil))) 12263
  (1130) (.node (.node (.node Tree.nil 12297 (1149) Tree.nil) 12300 (1149) (.node Tree.nil 12303 (1149) Tree.nil)) 12306 (1149) (.node (.node
  Tree.nil 12309 (1130) Tree.nil) 12401 (1153) Tree.nil))))
/-- `Info.Uses`. -/
def usesTable : Tree Nat := (.node (.node (.node (.node (.node (.node (.node (.node Tree.nil 11577 (16) Tree.nil) 11586 (16) (.node Tree.nil 11592
  (1113) Tree.nil)) 11594 (1114) (.node (.node Tree.nil 11596 (1115) Tree.nil) 11602 (16) Tree.nil)) 11610 (1) (.node (.node (.node Tree.nil 11613
  (16) Tree.nil) 11619 (1113) Tree.nil) 11624 (19) (.node (.node Tree.nil 11628 (1151) Tree.nil) 11635 (1114) Tree.nil))) 11640 (19) (.node (.node
  (.node (.node Tree.nil 11644 (1151) Tree.nil) 11651 (1115) Tree.nil) 11656 (19) (.node (.node Tree.nil 11660 (1151) Tree.nil) 11667 (1116)
  Tree.nil)) 11672 (19) (.node (.node (.node Tree.nil 11676 (1151) Tree.nil) 11683 (1113) Tree.nil) 11689 (19) (.node (.node Tree.nil 11693 (1151)
  Tree.nil) 11700 (1114) Tree.nil)))) 11706 (19) (.node (.node (.node (.node (.node Tree.nil 11710 (1151) Tree.nil) 11717 (1115) Tree.nil) 11723
  (19) (.node (.node Tree.nil 11727 (1151) Tree.nil) 11734 (1116) Tree.nil)) 11740 (19) (.node (.node (.node Tree.nil 11744 (1151) Tree.nil) 11751
  (1117) Tree.nil) 11757 (19) (.node (.node Tree.nil 11761 (1151) Tree.nil) 11768 (1117) Tree.nil))) 11773 (19) (.node (.node (.node (.node Tree.nil
  11777 (1151) Tree.nil) 11784 (1113) Tree.nil) 11790 (19) (.node (.node Tree.nil 11794 (1151) Tree.nil) 11801 (1113) Tree.nil)) 11806 (19) (.node
  (.node (.node Tree.nil 11810 (1151) Tree.nil) 11817 (1114) Tree.nil) 11823 (19) (.node (.node Tree.nil 11827 (1151) Tree.nil) 11834 (1114)
  Tree.nil))))) 11839 (19) (.node (.node (.node (.node (.node (.node Tree.nil 11843 (1151) Tree.nil) 11850 (1115) (.node Tree.nil 11856 (19)
  Tree.nil)) 11860 (1151) (.node (.node Tree.nil 11867 (1115) Tree.nil) 11872 (19) Tree.nil)) 11876 (1151) (.node (.node (.node Tree.nil 11883
  (1118) Tree.nil) 11889 (19) Tree.nil) 11893 (1151) (.node (.node Tree.nil 11900 (1118) Tree.nil) 11905 (19) Tree.nil))) 11909 (1151) (.node (.node
  (.node (.node Tree.nil 11917 (1113) Tree.nil) 11923 (19) Tree.nil) 11927 (1163) (.node (.node Tree.nil 11928 (1130) Tree.nil) 11935 (1113)
  Tree.nil)) 11940 (19) (.node (.node (.node Tree.nil 11944 (1164) Tree.nil) 11945 (1130) Tree.nil) 11952 (1113) (.node (.node Tree.nil 11958 (19)
  Tree.nil) 11962 (1165) Tree.nil)))) 11963 (1131) (.node (.node (.node (.node (.node Tree.nil 11970 (1116) Tree.nil) 11976 (19) Tree.nil) 11980
  (21) (.node (.node Tree.nil 11981 (1166) Tree.nil) 11982 (1130) Tree.nil)) 11987 (21) (.node (.node (.node Tree.nil 11988 (1166) Tree.nil) 11989
  (1132) Tree.nil) 11994 (21) (.node (.node Tree.nil 11995 (1166) Tree.nil) 11996 (1134) Tree.nil))) 12003 (23) (.node (.node (.node (.node Tree.nil
  12008 (1116) Tree.nil) 12013 (19) Tree.nil) 12017 (21) (.node (.node Tree.nil 12018 (1167) Tree.nil) 12019 (1130) Tree.nil)) 12024 (21) (.node
  (.node (.node Tree.nil 12025 (1167) Tree.nil) 12026 (1132) Tree.nil) 12031 (21) (.node (.node Tree.nil 12032 (1167) Tree.nil) 12033 (1134)
  Tree.nil)))))) 12040 (23) (.node (.node (.node (.node (.node (.node (.node Tree.nil 12045 (1116) Tree.nil) 12051 (19) (.node Tree.nil 12055 (21)
  Tree.nil)) 12056 (1168) (.node (.node Tree.nil 12057 (1131) Tree.nil) 12062 (21) Tree.nil)) 12063 (1168) (.node (.node (.node Tree.nil 12064
  (1133) Tree.nil) 12069 (21) Tree.nil) 12070 (1168) (.node (.node Tree.nil 12071 (1135) Tree.nil) 12078 (23) Tree.nil))) 12084 (1113) (.node (.node
  (.node (.node Tree.nil 12087 (1114) Tree.nil) 12089 (1116) Tree.nil) 12092 (1117) (.node (.node Tree.nil 12099 (19) Tree.nil) 12103 (21)
  Tree.nil)) 12104 (1169) (.node (.node (.node Tree.nil 12105 (1130) Tree.nil) 12110 (21) Tree.nil) 12111 (1170) (.node (.node Tree.nil 12112 (1132)
  Tree.nil) 12117 (21) Tree.nil)))) 12118 (1171) (.node (.node (.node (.node (.node Tree.nil 12119 (1134) Tree.nil) 12124 (21) Tree.nil) 12125
  (1172) (.node (.node Tree.nil 12126 (1128) Tree.nil) 12133 (23) Tree.nil)) 12139 (1116) (.node (.node (.node Tree.nil 12143 (19) Tree.nil) 12147
  (21) Tree.nil) 12148 (1173) (.node (.node Tree.nil 12151 (1130) Tree.nil) 12156 (21) Tree.nil))) 12157 (1173) (.node (.node (.node (.node Tree.nil
  12160 (1132) Tree.nil) 12165 (21) Tree.nil) 12168 (1173) (.node (.node Tree.nil 12170 (1175) Tree.nil) 12171 (1134) Tree.nil)) 12180 (23) (.node
  (.node (.node Tree.nil 12187 (1116) Tree.nil) 12194 (19) Tree.nil) 12198 (1176) (.node (.node Tree.nil 12199 (1177) Tree.nil) 12201 (1130)
  Tree.nil))))) 12208 (1116) (.node (.node (.node (.node (.node (.node Tree.nil 12214 (1116) Tree.nil) 12216 (1113) (.node Tree.nil 12217 (19)
  Tree.nil)) 12223 (1178) (.node (.node Tree.nil 12224 (1178) Tree.nil) 12225 (1179) Tree.nil)) 12227 (1178) (.node (.node (.node Tree.nil 12228
  (1134) Tree.nil) 12236 (1116) Tree.nil) 12240 (19) (.node (.node Tree.nil 12247 (1180) Tree.nil) 12248 (1147) Tree.nil))) 12252 (1183) (.node
  (.node (.node (.node Tree.nil 12253 (23) Tree.nil) 12256 (1183) Tree.nil) 12260 (1182) (.node (.node Tree.nil 12261 (1130) Tree.nil) 12268 (1116)
  Tree.nil)) 12274 (1116) (.node (.node (.node Tree.nil 12279 (1184) Tree.nil) 12284 (1116) Tree.nil) 12290 (19) (.node (.node Tree.nil 12294 (1185)
  Tree.nil) 12295 (1149) Tree.nil)))) 12298 (1149) (.node (.node (.node (.node (.node Tree.nil 12301 (1149) Tree.nil) 12304 (1149) Tree.nil) 12307
  (1130) (.node (.node Tree.nil 12315 (16) Tree.nil) 12322 (1151) Tree.nil)) 12328 (16) (.node (.node (.node Tree.nil 12332 (1186) Tree.nil) 12333
  (105) Tree.nil) 12339 (1151) (.node (.node Tree.nil 12345 (16) Tree.nil) 12349 (1187) Tree.nil))) 12350 (105) (.node (.node (.node (.node Tree.nil
  12356 (1151) Tree.nil) 12362 (16) Tree.nil) 12363 (16) (.node (.node Tree.nil 12368 (23) Tree.nil) 12373 (1151) Tree.nil)) 12379 (19) (.node
  (.node (.node Tree.nil 12383 (23) Tree.nil) 12388 (1151) Tree.nil) 12394 (16) (.node (.node Tree.nil 12398 (1190) Tree.nil) 12399 (1153)
  Tree.nil)))))))
/-- `Info.Selections`. -/
def selectionTable : Tree (GoType × Nat) := (.node (.node (.node (.node (.node (.node Tree.nil 11929 ((.pointer (.named 1113), 1130)) Tree.nil)
  11946 ((.named 1113, 1130)) Tree.nil) 11964 ((.pointer (.named 1113), 1131)) (.node Tree.nil 11983 ((.pointer (.named 1116), 1130)) Tree.nil))
  11990 ((.pointer (.named 1116), 1132)) (.node (.node Tree.nil 11997 ((.pointer (.named 1116), 1134)) Tree.nil) 12020 ((.named 1116, 1130)) (.node
  Tree.nil 12027 ((.named 1116, 1132)) Tree.nil))) 12034 ((.named 1116, 1134)) (.node (.node (.node Tree.nil 12058 ((.pointer (.named 1116), 1131))
  Tree.nil) 12065 ((.pointer (.named 1116), 1133)) (.node Tree.nil 12072 ((.pointer (.named 1116), 1135)) Tree.nil)) 12106 ((.pointer (.named 1113),
  1130)) (.node (.node Tree.nil 12113 ((.named 1114, 1132)) Tree.nil) 12120 ((.pointer (.named 1116), 1134)) (.node Tree.nil 12127 ((.pointer
  (.named 1117), 1128)) Tree.nil)))) 12152 ((.named 1116, 1130)) (.node (.node (.node (.node (.node Tree.nil 12161 ((.named 1116, 1132)) Tree.nil)
  12172 ((.named 1116, 1134)) Tree.nil) 12200 ((.pointer (.struct 129), 1177)) (.node Tree.nil 12202 ((.named 1116, 1130)) Tree.nil)) 12226
  ((.pointer (.named 1116), 1179)) (.node (.node Tree.nil 12229 ((.pointer (.named 1116), 1134)) Tree.nil) 12249 ((.pointer (.named 1116), 1147))
  (.node Tree.nil 12262 ((.named 1113, 1130)) Tree.nil))) 12296 ((.pointer (.named 1116), 1149)) (.node (.node (.node Tree.nil 12299 ((.pointer
  (.named 1116), 1149)) Tree.nil) 12302 ((.pointer (.named 1116), 1149)) (.node Tree.nil 12305 ((.pointer (.named 1116), 1149)) Tree.nil)) 12308
  ((.pointer (.named 1116), 1130)) (.node (.node Tree.nil 12334 ((.pointer (.named 1151), 105)) Tree.nil) 12351 ((.pointer (.named 1151), 105))
  (.node Tree.nil 12400 ((.pointer (.named 1151), 1153)) Tree.nil)))))
/-- Identifiers that are names of imported packages. -/
def pkgNameTable : Tree GoString := Tree.nil
/-- Method sets. -/
def methodSetTable : Tree (List (GoString × Nat)) := (.node (.node (.node (.node (.node Tree.nil 27 ([(s39, 1386)]) Tree.nil) 95 ([(s39, 20)])
  Tree.nil) 653 ([(s10, 1139), (s3, 1131), (s5, 1133), (s7, 1135)]) (.node Tree.nil 654 ([(s11, 1140), (s10, 1139), (s8, 1138), (s2, 1130), (s4,
  1132), (s6, 1134), (s3, 1131), (s5, 1133), (s7, 1135)]) Tree.nil)) 5565 ([(s0, 1120), (s10, 1139), (s3, 1131)]) (.node (.node Tree.nil 5566
  ([(s11, 1140), (s0, 1120), (s1, 1124), (s10, 1139), (s8, 1138), (s2, 1130), (s3, 1131)]) Tree.nil) 5570 ([(s0, 1121), (s5, 1133)]) (.node Tree.nil
  5571 ([(s0, 1121), (s1, 1125), (s4, 1132), (s5, 1133)]) Tree.nil))) 5575 ([(s0, 1122), (s7, 1135)]) (.node (.node (.node (.node Tree.nil 5576
  ([(s0, 1122), (s1, 1126), (s6, 1134), (s7, 1135)]) Tree.nil) 5580 ([(s0, 1123), (s10, 1139), (s16, 1142), (s3, 1131), (s5, 1133), (s7, 1135)])
  Tree.nil) 5581 ([(s32, 1150), (s11, 1140), (s17, 1143), (s0, 1123), (s1, 1127), (s10, 1139), (s16, 1142), (s8, 1138), (s27, 1147), (s12, 1141),
  (s2, 1130), (s4, 1132), (s6, 1134), (s31, 1149), (s3, 1131), (s5, 1133), (s7, 1135)]) (.node Tree.nil 5585 ([(s3, 1129)]) Tree.nil)) 5586 ([(s2,
  1128), (s3, 1129)]) (.node (.node Tree.nil 5590 ([(s3, 1137)]) Tree.nil) 5591 ([(s2, 1136), (s3, 1137)]) (.node Tree.nil 5756 ([(s38, 1155), (s33,
  1152), (s37, 1154), (s39, 1156), (s36, 1153)]) Tree.nil))))
/-- Types implementing `error`. -/
def implErrorTable : Tree Unit := (.node (.node Tree.nil 27 (()) Tree.nil) 95 (()) (.node Tree.nil 5756 (()) Tree.nil))
/-- Types implementing `error` with a code. -/
def implCodeTable : Tree Unit := (.node Tree.nil 5756 (()) Tree.nil)
/-- Types implementing `error` with a cause. -/
def implCauseTable : Tree Unit := (.node Tree.nil 5756 (()) Tree.nil)
/-- Signatures: types of parameters, variadic, number of results. -/
def sigTable : Tree (List GoType × Bool × Nat) := (.node (.node (.node (.node Tree.nil 6 (([], false, 1)) Tree.nil) 11 (([], false, 1)) Tree.nil) 23
  (([], false, 1)) (.node Tree.nil 133 (([.pointer (.named 1113), .named 1114, .pointer (.named 1116), .pointer (.named 1117)], false, 1))
  Tree.nil)) 134 (([.slice (.named 1116)], false, 1)) (.node (.node (.node Tree.nil 135 (([.pointer (.struct 129)], false, 1)) Tree.nil) 136 (([],
  false, 3)) Tree.nil) 137 (([.pointer (.named 1116)], false, 1)) (.node Tree.nil 139 (([], false, 1)) Tree.nil)))
/-- Tuples of results. -/
def tupleTable : Tree (List GoType) := (.node Tree.nil 138 ([.pointer (.named 1116), .named 1113, .named 19]) Tree.nil)
/-- Fields of structs. -/
def structTable : Tree (List (GoString × GoType)) := (.node (.node (.node Tree.nil 1 ([(s35, .string)]) Tree.nil) 2 ([]) (.node Tree.nil 129 ([(s26,
  .named 1116)]) Tree.nil)) 130 ([(s28, .named 1113), (s51, .named 1114), (s52, .named 1115)]) (.node (.node Tree.nil 131 ([(s53, .string), (s54,
  .string)]) Tree.nil) 132 ([(s55, .other 8), (s56, .string)]) Tree.nil))
/-- Underlying types of named types. -/
def underlyingTable : Tree GoType := (.node (.node (.node (.node Tree.nil 19 (.interface 5) Tree.nil) 1113 (.string) Tree.nil) 1114 (.struct 2)
  (.node Tree.nil 1115 (.struct 131) Tree.nil)) 1116 (.struct 130) (.node (.node (.node Tree.nil 1117 (.string) Tree.nil) 1118 (.struct 2) Tree.nil)
  1119 (.struct 132) (.node Tree.nil 1151 (.struct 1) Tree.nil)))
/-- Which types implement which interfaces. -/
def implTable : Tree (Tree Unit) := (.node Tree.nil 5 ((.node (.node Tree.nil 27 (()) Tree.nil) 95 (()) (.node Tree.nil 5756 (()) Tree.nil)))
  Tree.nil)
/-- Comments at return statements (`ast.NewCommentMap`). -/
def commentTable : Tree (List (List GoString)) := (.node (.node (.node (.node Tree.nil 11632 ([[s57]]) Tree.nil) 11648 ([[s57]]) (.node Tree.nil
  11664 ([[s57]]) Tree.nil)) 11680 ([[s57]]) (.node (.node Tree.nil 11697 ([[s58]]) Tree.nil) 11714 ([[s58]]) (.node Tree.nil 11731 ([[s58]])
  Tree.nil))) 11748 ([[s58]]) (.node (.node (.node Tree.nil 11931 ([[s59]]) Tree.nil) 11948 ([[s60]]) (.node Tree.nil 11966 ([[s61]]) Tree.nil))
  12204 ([[s62]]) (.node (.node Tree.nil 12231 ([[s63]]) Tree.nil) 12310 ([[s64]]) Tree.nil)))
/-- Function declarations. -/
def declTable : Tree DeclInfo := (.node (.node (.node (.node (.node (.node Tree.nil 0 (⟨s0, true, some 11619, some (CommentText.text [s65, s66,
  s67]), 11634, 1120, []⟩) Tree.nil) 1 (⟨s0, true, some 11635, some (CommentText.text [s65, s66, s67]), 11650, 1121, []⟩) Tree.nil) 2 (⟨s0, true,
  some 11651, some (CommentText.text [s65, s66, s67]), 11666, 1122, []⟩) (.node Tree.nil 3 (⟨s0, true, some 11667, some (CommentText.text [s65, s66,
  s67]), 11682, 1123, []⟩) Tree.nil)) 4 (⟨s1, true, some 11684, some (CommentText.text [s65, s66, s67]), 11699, 1124, []⟩) (.node (.node (.node
  Tree.nil 5 (⟨s1, true, some 11701, some (CommentText.text [s65, s66, s67]), 11716, 1125, []⟩) Tree.nil) 6 (⟨s1, true, some 11718, some
  (CommentText.text [s65, s66, s67]), 11733, 1126, []⟩) Tree.nil) 7 (⟨s1, true, some 11735, some (CommentText.text [s65, s66, s67]), 11750, 1127,
  []⟩) (.node Tree.nil 8 (⟨s2, false, some 11752, some (CommentText.text [s68]), 11767, 1128, []⟩) Tree.nil))) 9 (⟨s3, false, some 11768, some
  (CommentText.text [s69]), 11783, 1129, []⟩) (.node (.node (.node (.node Tree.nil 10 (⟨s2, false, some 11785, none, 11800, 1130, []⟩) Tree.nil) 11
  (⟨s3, false, some 11801, none, 11816, 1131, []⟩) Tree.nil) 12 (⟨s4, false, some 11818, none, 11833, 1132, []⟩) (.node Tree.nil 13 (⟨s5, false,
  some 11834, none, 11849, 1133, []⟩) Tree.nil)) 14 (⟨s6, false, some 11851, none, 11866, 1134, []⟩) (.node (.node Tree.nil 15 (⟨s7, false, some
  11867, none, 11882, 1135, []⟩) Tree.nil) 16 (⟨s2, false, some 11884, some (CommentText.text [s68]), 11899, 1136, []⟩) (.node Tree.nil 17 (⟨s3,
  false, some 11900, some (CommentText.text [s69]), 11915, 1137, []⟩) Tree.nil)))) 18 (⟨s8, true, some 11918, some (CommentText.text [s65, s66,
  s70]), 11933, 1138, [⟨11916, s9, (some 12)⟩]⟩) (.node (.node (.node (.node (.node Tree.nil 19 (⟨s10, true, some 11935, some (CommentText.text
  [s65, s66, s70]), 11950, 1139, [⟨11934, s9, (some 13)⟩]⟩) Tree.nil) 20 (⟨s11, true, some 11953, some (CommentText.text [s65, s66, s71]), 11968,
  1140, [⟨11951, s9, (some 14)⟩]⟩) Tree.nil) 21 (⟨s12, true, some 11971, some (CommentText.text [s65, s66, s70, s72, s73]), 12006, 1141, [⟨11969,
  s14, (some 15)⟩]⟩) (.node Tree.nil 22 (⟨s16, true, some 12008, some (CommentText.text [s65, s66, s70, s72, s73]), 12043, 1142, [⟨12007, s14, (some
  16)⟩]⟩) Tree.nil)) 23 (⟨s17, true, some 12046, some (CommentText.text [s65, s66, s71, s74, s75]), 12081, 1143, [⟨12044, s14, (some 17)⟩]⟩) (.node
  (.node Tree.nil 24 (⟨s18, true, none, some (CommentText.text [s65, s66, s70, s72, s73, s76]), 12136, 1144, []⟩) Tree.nil) 25 (⟨s21, true, none,
  some (CommentText.text [s65, s66, s70, s72, s73]), 12183, 1145, []⟩) (.node Tree.nil 26 (⟨s24, true, none, some (CommentText.text [s65, s66,
  s70]), 12206, 1146, []⟩) Tree.nil))) 27 (⟨s27, true, some 12209, some (CommentText.text [s65, s66, s73]), 12233, 1147, [⟨12207, s14, (some 30)⟩]⟩)
  (.node (.node (.node (.node Tree.nil 28 (⟨s29, true, none, some (CommentText.text [s65, s66, s70, s73]), 12266, 1148, []⟩) Tree.nil) 29 (⟨s31,
  false, some 12269, none, 12282, 1149, [⟨12267, s14, (some 36)⟩]⟩) Tree.nil) 30 (⟨s32, true, some 12285, some (CommentText.text [s65, s66, s70]),
  12312, 1150, [⟨12283, s14, (some 37)⟩]⟩) (.node Tree.nil 31 (⟨s33, true, some 12323, none, 12337, 1152, [⟨12321, s34, (some 39)⟩]⟩) Tree.nil)) 32
  (⟨s36, true, some 12340, none, 12354, 1153, [⟨12338, s34, (some 40)⟩]⟩) (.node (.node Tree.nil 33 (⟨s37, true, some 12357, none, 12371, 1154,
  [⟨12355, s34, (some 41)⟩]⟩) Tree.nil) 34 (⟨s38, true, some 12374, none, 12386, 1155, [⟨12372, s34, (some 42)⟩]⟩) (.node Tree.nil 35 (⟨s39, true,
  some 12389, none, 12404, 1156, [⟨12387, s34, (some 43)⟩]⟩) Tree.nil)))))
/-- Named interfaces. -/
def interfaceTable : Tree Unit := (.node Tree.nil 19 (()) Tree.nil)
/-- Methods of named types. -/
def methodNameTable : Tree (List GoString) := (.node (.node (.node Tree.nil 1113 ([s0, s1, s2, s3, s8, s10, s11]) Tree.nil) 1114 ([s0, s1, s4, s5])
  (.node Tree.nil 1115 ([s0, s1, s6, s7]) Tree.nil)) 1116 ([s0, s1, s12, s16, s17, s27, s31, s32]) (.node (.node Tree.nil 1117 ([s2, s3]) Tree.nil)
  1118 ([s2, s3]) (.node Tree.nil 1151 ([s33, s36, s37, s38, s39]) Tree.nil)))
/-- Objects of interface methods. -/
def methodObjTable : Tree Nat := Tree.nil
/-- Syntax and types of the package, and the facts exported by the packages it imports. -/
def env : Env where
  funcs := [f0, f1, f2, f3, f4, f5, f6, f7, f8, f9, f10, f11, f12, f13, f14, f15, f16, f17, f18, f19, f20, f21, f22, f23, f24, f25, f26, f27, f28,
  f29, f30, f31, f32, f33, f34, f35]
  objects := objects
  typeOf := fun n => (typeTable.find n).getD (.other 0)
  value := valueTable.find
  callee := calleeTable.find
  uses := usesTable.find
  selection := selectionTable.find
  pkgName := pkgNameTable.find
  funcObj := fun f => ((declTable.find f).map (·.obj)).getD 0
  implError := fun t => has implErrorTable t
  implCode := fun t => has implCodeTable t
  sigResults := fun n => ((sigTable.find n).map (·.2.2)).getD 0
  methodSet := fun t name => ((typeKey t).bind methodSetTable.find).bind fun l => lookup name l
  functions := fun _ => none
  methods := fun _ => []
  comments := fun n => ((commentTable.find n).getD []).map CommentText.text
  isPrint := fun r => 32 ≤ r && r < 127
  facts := noFacts
/-- The package. -/
def package : Package where
  env := env
  decls := ⟨fun f => ((declTable.find f).map (·.name)).getD [], fun f => ((declTable.find f).map (·.exported)).getD false,
    fun f => (declTable.find f).bind (·.recv), fun f => (declTable.find f).bind (·.doc), fun t => has implCauseTable t,
    fun f => ((declTable.find f).map (·.pos)).getD 0⟩
  types := ⟨fun f => (((declTable.find f).bind (·.recv)).bind typeTable.find).getD (.other 0),
    fun f => ((declTable.find f).map (·.recvNames)).getD [], fun o => (interfaceTable.find o).isSome,
    fun o => (methodNameTable.find o).getD []⟩
  funcs := [0, 1, 2, 3, 4, 5, 6, 7, 8, 9, 10, 11, 12, 13, 14, 15, 16, 17, 18, 19, 20, 21, 22, 23, 24, 25, 26, 27, 28, 29, 30, 31, 32, 33, 34, 35]
  specs := [⟨11618, .named 1113, none⟩, ⟨11618, .named 1114, some []⟩, ⟨11618, .named 1115, some [[s53, s54]]⟩, ⟨11618, .named 1116, some [[], [],
  []]⟩, ⟨11618, .named 1117, none⟩, ⟨11618, .named 1118, some []⟩, ⟨11618, .named 1119, some [[s55], [s56]]⟩, ⟨12320, .named 1151, some [[s35]]⟩]
  ifaces := []
  methodObj := fun n => (methodObjTable.find n).getD 0
  conv := ⟨fun o => (underlyingTable.find o).getD (.other 0), fun n => ((sigTable.find n).map (·.1)).getD [],
    fun n => ((sigTable.find n).map (·.2.1)).getD false, fun n => (tupleTable.find n).getD [], fun n => (structTable.find n).getD [],
    fun t n => ((implTable.find n).map fun tr => has tr t).getD false⟩
  top := [
    .node (.other 11618 [.other 11578 [.ident ⟨11576, s28, (some 0)⟩, .ident ⟨11577, s77, none⟩], .other 11582 [.ident ⟨11579, s51, (some 1)⟩,
  .other 11581 [.other 11580 []]], .other 11590 [.ident ⟨11583, s52, (some 2)⟩, .other 11589 [.other 11588 [.other 11587 [.ident ⟨11584, s53, (some
  3)⟩, .ident ⟨11585, s54, (some 4)⟩, .ident ⟨11586, s77, none⟩]]]], .other 11600 [.ident ⟨11591, s26, (some 5)⟩, .other 11599 [.other 11598 [.other
  11593 [.ident ⟨11592, s28, (some 0)⟩], .other 11595 [.ident ⟨11594, s51, (some 1)⟩], .other 11597 [.ident ⟨11596, s52, (some 2)⟩]]]], .other 11603
  [.ident ⟨11601, s78, (some 6)⟩, .ident ⟨11602, s77, none⟩], .other 11607 [.ident ⟨11604, s79, (some 7)⟩, .other 11606 [.other 11605 []]], .other
  11617 [.ident ⟨11608, s80, (some 8)⟩, .other 11616 [.other 11615 [.other 11611 [.ident ⟨11609, s55, (some 9)⟩, .ident ⟨11610, s81, none⟩], .other
  11614 [.ident ⟨11612, s56, (some 10)⟩, .ident ⟨11613, s77, none⟩]]]]]),
    .func 0,
    .func 1,
    .func 2,
    .func 3,
    .func 4,
    .func 5,
    .func 6,
    .func 7,
    .func 8,
    .func 9,
    .func 10,
    .func 11,
    .func 12,
    .func 13,
    .func 14,
    .func 15,
    .func 16,
    .func 17,
    .func 18,
    .func 19,
    .func 20,
    .func 21,
    .func 22,
    .func 23,
    .func 24,
    .func 25,
    .func 26,
    .func 27,
    .func 28,
    .func 29,
    .func 30,
    .node (.other 12320 [.other 12319 [.ident ⟨12313, s39, (some 11)⟩, .other 12318 [.other 12317 [.other 12316 [.ident ⟨12314, s35, (some 38)⟩,
  .ident ⟨12315, s77, none⟩]]]]]),
    .func 31,
    .func 32,
    .func 33,
    .func 34,
    .func 35]
/-- The run, in one order. -/
def result : Except Stop Outcome := runVerify package Check.source true
/-- What is expected.  The comments in the package say (with facts as `object: fact`):
```
methods.go:25: Easy1: ErrorCodes: easy-error
methods.go:32: Easy1: ErrorCodes: easy-error
methods.go:39: Easy1: ErrorCodes: easy-error
methods.go:46: Easy1: ErrorCodes: easy-error
methods.go:53: Easy2: ErrorCodes: easy-error
methods.go:60: Easy2: ErrorCodes: easy-error
methods.go:67: Easy2: ErrorCodes: easy-error
methods.go:74: Easy2: ErrorCodes: easy-error
methods.go:125: MethodCall: ErrorCodes: a-error
methods.go:132: IndirectMethodCall: ErrorCodes: a-error
methods.go:139: DereferencedMethodCall: ErrorCodes: a-value-error
methods.go:148: PromotedCall: ErrorCodes: a-error b-error c-error
methods.go:165: IndirectPromotedCall: ErrorCodes: a-error b-error c-error
methods.go:182: DereferencedPromotedCall: ErrorCodes: a-value-error b-value-error c-value-error
methods.go:201: FunctionCallingMethods: ErrorCodes: a-error b-error c-error x-error
methods.go:220: ArrayMethodCall: ErrorCodes: a-error b-error c-error
methods.go:237: Struct: ErrorCodes: a-error
methods.go:244: MultipleResults: ErrorCodes: c-error
methods.go:252: CallMultipleResults: ErrorCodes: a-error c-error
methods.go:268: Chained: ErrorCodes: a-error
methods.go:272: Error: ErrorType{Field:{Name:"TheCode", Position:0}, Codes:}
``` -/
def expected : Check.Expected where
  tags := []
  ifaces := []
  signatures := []
  claims := []
  bodies := []
  mismatches := []
  conversions := []
  codes := [(1120, [b!"easy-error"]),
    (1121, [b!"easy-error"]),
    (1122, [b!"easy-error"]),
    (1123, [b!"easy-error"]),
    (1124, [b!"easy-error"]),
    (1125, [b!"easy-error"]),
    (1126, [b!"easy-error"]),
    (1127, [b!"easy-error"]),
    (1138, [b!"a-error"]),
    (1139, [b!"a-error"]),
    (1140, [b!"a-value-error"]),
    (1141, [b!"a-error", b!"b-error", b!"c-error"]),
    (1142, [b!"a-error", b!"b-error", b!"c-error"]),
    (1143, [b!"a-value-error", b!"b-value-error", b!"c-value-error"]),
    (1144, [b!"a-error", b!"b-error", b!"c-error", b!"x-error"]),
    (1145, [b!"a-error", b!"b-error", b!"c-error"]),
    (1146, [b!"a-error"]),
    (1147, [b!"c-error"]),
    (1148, [b!"a-error", b!"c-error"]),
    (1150, [b!"a-error"])]
  ctors := []
  errorTypes := [(1151, { codes := [], field := some { name := b!"TheCode", position := 0 } })]
  interfaces := []
  objects := 1385

/-- What functions call, and which literals they visit. -/
def graph : Check.Graph :=
  [([], []), ([], []), ([], []), ([], []), ([], []), ([], []), ([], []), ([], []), ([], []), ([], []), ([], []), ([], []), ([], []), ([], []),
  ([], []), ([], []), ([], []), ([], []), ([10], []), ([10], []), ([11], []), ([10, 12, 14], []), ([10, 12, 14], []), ([11, 13, 15], []),
  ([10, 12, 14, 8], []), ([10, 12, 14], []), ([10], []), ([14], []), ([27, 10], []), ([], []), ([10], []), ([], []), ([], []), ([], []), ([],
  []), ([32], [])]

theorem checked : Check.run package true expected graph = true := by decide +kernel

theorem imports : Check.Tables package.env.facts := tables_noFacts

theorem exported : Check.Tables (Check.factsOf result) := Check.tables checked imports

/-- The facts known before a run: those exported by some run over the imported packages. -/
def Imported (F : Facts) : Prop :=
  F = noFacts

/-- The facts known after a run. -/
def Exports (F : Facts) : Prop := Check.Exports package Imported true F

theorem imports_same (F : Facts) (h : Imported F) : Props.Run.SameFacts package.env.facts F := by
  obtain rfl := h
  exact (.refl _)

theorem exports_same {F : Facts} (h : Exports F) : Props.Run.SameFacts (Check.factsOf result) F :=
  Check.exports_same checked imports imports_same h

/-- **C54**: every run over the package has the expected result. -/
theorem always : Check.Always package Imported true expected :=
  Check.always checked imports imports_same

/-- For the nodes with diagnostics: file, line, and type of node. -/
def nodes : Tree (GoString × Nat × GoString) :=
  Tree.nil

/-- The names of the objects named in diagnostics other than by identifiers. -/
def objectNames : Tree GoString :=
  Tree.nil

def names : Names where
  object := fun o => (objectNames.find o).getD []
  kind := fun n => ((nodes.find n).map fun p => p.2.2).getD []

def place (n : NodeId) : GoString × Nat := ((nodes.find n).map fun p => (p.1, p.2.1)).getD ([], 0)

/-- What is printed: file, line and text. -/
def lines : List Check.Line := []

/-- **C54**: for every run over the package, these lines are printed. -/
theorem prints : Check.Prints package Imported true names place lines :=
  Check.prints always (by decide +kernel)

end Serum.Testdata.methods
