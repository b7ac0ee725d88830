import Verif.Testdata.Support
import Verif.Testdata.MultipackageInner1
import Verif.Testdata.MultipackageInner2

/-!
# C54: the package analysis/testdata/src/multipackage

Generated by `scripts/conformance/testdata.py` from multipackage.go.  Numbers of syntax nodes, objects and types are arbitrary.  The tables hold
what `go/parser` and `go/types` say about the package.
-/

set_option maxRecDepth 100000
set_option linter.all false

namespace Serum.Testdata.multipackage
open Serum Serum.Testdata

def s0 : GoString := b!"RunPackage1"
def s1 : GoString := b!"inner1"
def s2 : GoString := b!"ExportedFunc1"
def s3 : GoString := b!"RunPackage2"
def s4 : GoString := b!"inner2"
def s5 : GoString := b!"ExportedFunc2"
def s6 : GoString := b!"Trap1"
def s7 : GoString := b!"trap"
def s8 : GoString := b!"returnTrap"
def s9 : GoString := b!"returnError"
def s10 : GoString := b!"Trap2"
def s11 : GoString := b!"Inner1Error"
def s12 : GoString := b!"Inner2Error"
def s13 : GoString := b!"Inner1UnusedError"
def s14 : GoString := b!"Inner2UnusedError"
def s15 : GoString := b!"CallToUndeclared1"
def s16 : GoString := b!"true"
def s17 : GoString := b!"CodeNotDeclared"
def s18 : GoString := b!"CallToUndeclared2"
def s19 : GoString := b!"CallToUndeclared3"
def s20 : GoString := b!"object"
def s21 : GoString := b!"CallToUndeclared4"
def s22 : GoString := b!"Code"
def s23 : GoString := b!"e"
def s24 : GoString := b!"TheCode"
def s25 : GoString := b!"Message"
def s26 : GoString := b!"Details"
def s27 : GoString := b!"nil"
def s28 : GoString := b!"Cause"
def s29 : GoString := b!"Error"
def s30 : GoString := b!"hello-error"
def s31 : GoString := b!"inner1-error"
def s32 : GoString := b!"inner2-error"
def s33 : GoString := b!"inner1-unused-error"
def s34 : GoString := b!"inner2-unused-error"
def s35 : GoString := b!"x-error"
def s36 : GoString := b!"// want RunPackage1:\"ErrorCodes: hello-error\""
def s37 : GoString := b!"// want RunPackage2:\"ErrorCodes: hello-error\""
def s38 : GoString := b!"// want Trap2:\"ErrorCodes: hello-error\""
def s39 : GoString := b!"// want Inner1Error:\"ErrorCodes: inner1-error\""
def s40 : GoString := b!"// want Inner2Error:\"ErrorCodes: inner2-error\""
def s41 : GoString := b!"// want Inner1UnusedError:\"ErrorCodes: inner1-unused-error\""
def s42 : GoString := b!"// want Inner2UnusedError:\"ErrorCodes: inner2-unused-error\""
def s43 : GoString := b!"// want `function \"CodeNotDeclared\" in package \"inner1\" does not declare error codes`"
def s44 : GoString := b!"// want `function \"CodeNotDeclared\" in package \"inner2\" does not declare error codes`"
def s45 : GoString := b!"// want \"called function does not declare error codes\""
def s46 : GoString := b!"// RunPackage1 is a demo function."
def s47 : GoString := b!"//"
def s48 : GoString := b!"// Errors:"
def s49 : GoString := b!"//    - hello-error -- is always returned"
def s50 : GoString := b!"// RunPackage2 is a demo function"
def s51 : GoString := b!"// Trap1 is a demo function."
def s52 : GoString := b!"// Trap2 is a demo function."
def s53 : GoString := b!"// Inner1Error returns an error from another package."
def s54 : GoString := b!"//    - inner1-error -- is always returned"
def s55 : GoString := b!"// Inner2Error returns an error from another package."
def s56 : GoString := b!"//    - inner2-error -- is always returned"
def s57 : GoString := b!"// Inner1UnusedError returns an error from another package,"
def s58 : GoString := b!"// which is not returned by any function in the inner package."
def s59 : GoString := b!"//    - inner1-unused-error -- is always returned"
def s60 : GoString := b!"// Inner2UnusedError returns an error from another package,"
def s61 : GoString := b!"//    - inner2-unused-error -- is always returned"
def s62 : GoString := b!"//    - x-error --"
def s63 : GoString := b!"TrapType"
def s64 : GoString := b!"string"
/-- multipackage.go:13: `func RunPackage1` -/
def f0 : FuncDef := ⟨12802, some ⟨12790, s0, (some 0)⟩, ⟨[], (some [⟨[], 12792⟩]), 193⟩, some [.ret 12800 [.call 12799 (.selector 12798 (.ident
  ⟨12796, s1, none⟩) ⟨12797, s2, none⟩) []]], 199, 279⟩
/-- multipackage.go:22: `func RunPackage2` -/
def f1 : FuncDef := ⟨12815, some ⟨12803, s3, (some 1)⟩, ⟨[], (some [⟨[], 12805⟩]), 393⟩, some [.ret 12813 [.call 12812 (.selector 12811 (.ident
  ⟨12809, s4, none⟩) ⟨12810, s5, none⟩) []]], 399, 479⟩
/-- multipackage.go:31: `func Trap1` -/
def f2 : FuncDef := ⟨12832, some ⟨12816, s6, (some 2)⟩, ⟨[], (some [⟨[], 12818⟩]), 582⟩, some [.assign 12825 [.ident ⟨12822, s7, (some 3)⟩] [.call
  12824 (.ident ⟨12823, s8, (some 4)⟩) []], .ret 12830 [.call 12829 (.selector 12828 (.ident ⟨12826, s7, (some 3)⟩) ⟨12827, s9, none⟩) []]], 588,
  680⟩
/-- multipackage.go:41: `func Trap2` -/
def f3 : FuncDef := ⟨12846, some ⟨12833, s10, (some 5)⟩, ⟨[], (some [⟨[], 12835⟩]), 783⟩, some [.ret 12844 [.call 12843 (.selector 12842 (.call
  12840 (.ident ⟨12839, s8, (some 4)⟩) []) ⟨12841, s9, none⟩) []]], 789, 867⟩
/-- multipackage.go:47: `func returnError` -/
def f4 : FuncDef := ⟨12867, some ⟨12855, s9, none⟩, ⟨[], (some [⟨[], 12857⟩]), 923⟩, some [.ret 12865 [.unary 12864 true (.compositeLit 12863
  [.basicLit 12862])]], 929, 962⟩
/-- multipackage.go:51: `func returnTrap` -/
def f5 : FuncDef := ⟨12878, some ⟨12868, s8, (some 4)⟩, ⟨[], (some [⟨[], 12870⟩]), 982⟩, some [.ret 12876 [.compositeLit 12875 []]], 991, 1013⟩
/-- multipackage.go:60: `func Inner1Error` -/
def f6 : FuncDef := ⟨12893, some ⟨12879, s11, (some 8)⟩, ⟨[], (some [⟨[], 12881⟩]), 1148⟩, some [.ret 12891 [.unary 12890 true (.compositeLit 12889
  [.basicLit 12888])]], 1154, 1242⟩
/-- multipackage.go:69: `func Inner2Error` -/
def f7 : FuncDef := ⟨12908, some ⟨12894, s12, (some 9)⟩, ⟨[], (some [⟨[], 12896⟩]), 1377⟩, some [.ret 12906 [.unary 12905 true (.compositeLit 12904
  [.basicLit 12903])]], 1383, 1471⟩
/-- multipackage.go:79: `func Inner1UnusedError` -/
def f8 : FuncDef := ⟨12923, some ⟨12909, s13, (some 10)⟩, ⟨[], (some [⟨[], 12911⟩]), 1688⟩, some [.ret 12921 [.unary 12920 true (.compositeLit 12919
  [.basicLit 12918])]], 1694, 1808⟩
/-- multipackage.go:89: `func Inner2UnusedError` -/
def f9 : FuncDef := ⟨12938, some ⟨12924, s14, (some 11)⟩, ⟨[], (some [⟨[], 12926⟩]), 2025⟩, some [.ret 12936 [.unary 12935 true (.compositeLit 12934
  [.basicLit 12933])]], 2031, 2145⟩
/-- multipackage.go:96: `func CallToUndeclared1` -/
def f10 : FuncDef := ⟨12960, some ⟨12939, s15, (some 12)⟩, ⟨[], (some [⟨[], 12941⟩]), 2205⟩, some [.other 12953 [.ident ⟨12945, s16, none⟩, .other
  12952 [.ret 12951 [.call 12950 (.selector 12949 (.ident ⟨12947, s1, none⟩) ⟨12948, s17, none⟩) []]]], .ret 12958 [.unary 12957 true (.compositeLit
  12956 [.basicLit 12955])]], 2211, 2422⟩
/-- multipackage.go:106: `func CallToUndeclared2` -/
def f11 : FuncDef := ⟨12982, some ⟨12961, s18, (some 13)⟩, ⟨[], (some [⟨[], 12963⟩]), 2482⟩, some [.other 12975 [.ident ⟨12967, s16, none⟩, .other
  12974 [.ret 12973 [.call 12972 (.selector 12971 (.ident ⟨12969, s4, none⟩) ⟨12970, s17, none⟩) []]]], .ret 12980 [.unary 12979 true (.compositeLit
  12978 [.basicLit 12977])]], 2488, 2699⟩
/-- multipackage.go:116: `func CallToUndeclared3` -/
def f12 : FuncDef := ⟨13010, some ⟨12983, s19, (some 14)⟩, ⟨[], (some [⟨[], 12985⟩]), 2759⟩, some [.other 13003 [.ident ⟨12989, s16, none⟩, .other
  13002 [.assign 12996 [.ident ⟨12991, s20, (some 15)⟩] [.compositeLit 12995 []], .ret 13001 [.call 13000 (.selector 12999 (.ident ⟨12997, s20,
  (some 15)⟩) ⟨12998, s17, none⟩) []]]], .ret 13008 [.unary 13007 true (.compositeLit 13006 [.basicLit 13005])]], 2765, 2975⟩
/-- multipackage.go:127: `func CallToUndeclared4` -/
def f13 : FuncDef := ⟨13038, some ⟨13011, s21, (some 16)⟩, ⟨[], (some [⟨[], 13013⟩]), 3035⟩, some [.other 13031 [.ident ⟨13017, s16, none⟩, .other
  13030 [.assign 13024 [.ident ⟨13019, s20, (some 17)⟩] [.compositeLit 13023 []], .ret 13029 [.call 13028 (.selector 13027 (.ident ⟨13025, s20,
  (some 17)⟩) ⟨13026, s17, none⟩) []]]], .ret 13036 [.unary 13035 true (.compositeLit 13034 [.basicLit 13033])]], 3041, 3251⟩
/-- multipackage.go:139: `func Code` -/
def f14 : FuncDef := ⟨13063, some ⟨13052, s22, none⟩, ⟨[], (some [⟨[], 13054⟩]), 3385⟩, some [.ret 13061 [.selector 13060 (.ident ⟨13058, s23, (some
  19)⟩) ⟨13059, s24, none⟩]], 3406, 3426⟩
/-- multipackage.go:140: `func Message` -/
def f15 : FuncDef := ⟨13080, some ⟨13069, s25, none⟩, ⟨[], (some [⟨[], 13071⟩]), 3453⟩, some [.ret 13078 [.selector 13077 (.ident ⟨13075, s23, (some
  20)⟩) ⟨13076, s24, none⟩]], 3471, 3491⟩
/-- multipackage.go:141: `func Details` -/
def f16 : FuncDef := ⟨13097, some ⟨13086, s26, none⟩, ⟨[], (some [⟨[], 13090⟩]), 3518⟩, some [.ret 13095 [.ident ⟨13094, s27, none⟩]], 3536, 3550⟩
/-- multipackage.go:142: `func Cause` -/
def f17 : FuncDef := ⟨13112, some ⟨13103, s28, none⟩, ⟨[], (some [⟨[], 13105⟩]), 3575⟩, some [.ret 13110 [.ident ⟨13109, s27, none⟩]], 3595, 3609⟩
/-- multipackage.go:143: `func Error` -/
def f18 : FuncDef := ⟨13130, some ⟨13118, s29, none⟩, ⟨[], (some [⟨[], 13120⟩]), 3634⟩, some [.ret 13128 [.call 13127 (.selector 13126 (.ident
  ⟨13124, s23, (some 23)⟩) ⟨13125, s25, none⟩) []]], 3654, 3676⟩
/-- The objects of go/ast, in the order of their numbers. -/
def objects : List ObjInfo := [
  ⟨.fun_, 179, (.funcDecl 0)⟩,
  ⟨.fun_, 379, (.funcDecl 1)⟩,
  ⟨.fun_, 574, (.funcDecl 2)⟩,
  ⟨.var, 631, .other⟩,
  ⟨.fun_, 969, (.funcDecl 5)⟩,
  ⟨.fun_, 775, (.funcDecl 3)⟩,
  ⟨.typ, 874, .typeSpec⟩,
  ⟨.typ, 3258, .typeSpec⟩,
  ⟨.fun_, 1134, (.funcDecl 6)⟩,
  ⟨.fun_, 1363, (.funcDecl 7)⟩,
  ⟨.fun_, 1668, (.funcDecl 8)⟩,
  ⟨.fun_, 2005, (.funcDecl 9)⟩,
  ⟨.fun_, 2185, (.funcDecl 10)⟩,
  ⟨.fun_, 2462, (.funcDecl 11)⟩,
  ⟨.fun_, 2739, (.funcDecl 12)⟩,
  ⟨.var, 2828, .other⟩,
  ⟨.fun_, 3015, (.funcDecl 13)⟩,
  ⟨.var, 3104, .other⟩,
  ⟨.var, 3344, .other⟩,
  ⟨.var, 3368, .other⟩,
  ⟨.var, 3433, .other⟩,
  ⟨.var, 3498, .other⟩,
  ⟨.var, 3557, .other⟩,
  ⟨.var, 3616, .other⟩]
/-- Types of expressions (`Info.Types`, `Info.Defs`, `Info.Uses`). -/
def typeTable : Tree GoType := (.node (.node (.node (.node (.node (.node (.node (.node Tree.nil 12790 (.signature 6) Tree.nil) 12792 (.named 19)
  Tree.nil) 12795 (.signature 6) (.node (.node Tree.nil 12797 (.signature 6) Tree.nil) 12798 (.signature 6) Tree.nil)) 12799 (.named 19) (.node
  (.node (.node Tree.nil 12803 (.signature 6) Tree.nil) 12805 (.named 19) Tree.nil) 12808 (.signature 6) (.node (.node Tree.nil 12810 (.signature 6)
  Tree.nil) 12811 (.signature 6) Tree.nil))) 12812 (.named 19) (.node (.node (.node (.node Tree.nil 12816 (.signature 6) Tree.nil) 12818 (.named 19)
  Tree.nil) 12821 (.signature 6) (.node (.node Tree.nil 12822 (.named 1257) Tree.nil) 12823 (.signature 140) Tree.nil)) 12824 (.named 1257) (.node
  (.node (.node Tree.nil 12826 (.named 1257) Tree.nil) 12827 (.signature 6) Tree.nil) 12828 (.signature 6) (.node Tree.nil 12829 (.named 19)
  Tree.nil)))) 12833 (.signature 6) (.node (.node (.node (.node (.node Tree.nil 12835 (.named 19) Tree.nil) 12838 (.signature 6) Tree.nil) 12839
  (.signature 140) (.node (.node Tree.nil 12840 (.named 1257) Tree.nil) 12841 (.signature 6) Tree.nil)) 12842 (.signature 6) (.node (.node (.node
  Tree.nil 12843 (.named 19) Tree.nil) 12847 (.named 1257) Tree.nil) 12849 (.struct 2) (.node Tree.nil 12852 (.named 1257) Tree.nil))) 12855
  (.signature 6) (.node (.node (.node (.node Tree.nil 12857 (.named 19) Tree.nil) 12860 (.signature 6) Tree.nil) 12861 (.named 1268) (.node (.node
  Tree.nil 12862 (.string) Tree.nil) 12863 (.named 1268) Tree.nil)) 12864 (.pointer (.named 1268)) (.node (.node (.node Tree.nil 12868 (.signature
  140) Tree.nil) 12870 (.named 1257) Tree.nil) 12873 (.signature 140) (.node Tree.nil 12874 (.named 1257) Tree.nil))))) 12875 (.named 1257) (.node
  (.node (.node (.node (.node (.node Tree.nil 12879 (.signature 6) Tree.nil) 12881 (.named 19) Tree.nil) 12884 (.signature 6) (.node (.node Tree.nil
  12886 (.named 1211) Tree.nil) 12887 (.named 1211) Tree.nil)) 12888 (.string) (.node (.node (.node Tree.nil 12889 (.named 1211) Tree.nil) 12890
  (.pointer (.named 1211)) Tree.nil) 12894 (.signature 6) (.node (.node Tree.nil 12896 (.named 19) Tree.nil) 12899 (.signature 6) Tree.nil))) 12901
  (.named 1234) (.node (.node (.node (.node Tree.nil 12902 (.named 1234) Tree.nil) 12903 (.string) Tree.nil) 12904 (.named 1234) (.node (.node
  Tree.nil 12905 (.pointer (.named 1234)) Tree.nil) 12909 (.signature 6) Tree.nil)) 12911 (.named 19) (.node (.node (.node Tree.nil 12914
  (.signature 6) Tree.nil) 12916 (.named 1217) Tree.nil) 12917 (.named 1217) (.node Tree.nil 12918 (.string) Tree.nil)))) 12919 (.named 1217) (.node
  (.node (.node (.node (.node Tree.nil 12920 (.pointer (.named 1217)) Tree.nil) 12924 (.signature 6) Tree.nil) 12926 (.named 19) (.node (.node
  Tree.nil 12929 (.signature 6) Tree.nil) 12931 (.named 1240) Tree.nil)) 12932 (.named 1240) (.node (.node (.node Tree.nil 12933 (.string) Tree.nil)
  12934 (.named 1240) Tree.nil) 12935 (.pointer (.named 1240)) (.node Tree.nil 12939 (.signature 6) Tree.nil))) 12941 (.named 19) (.node (.node
  (.node (.node Tree.nil 12944 (.signature 6) Tree.nil) 12945 (.other 10) Tree.nil) 12948 (.signature 6) (.node (.node Tree.nil 12949 (.signature 6)
  Tree.nil) 12950 (.named 19) Tree.nil)) 12954 (.named 1268) (.node (.node (.node Tree.nil 12955 (.string) Tree.nil) 12956 (.named 1268) Tree.nil)
  12957 (.pointer (.named 1268)) (.node Tree.nil 12961 (.signature 6) Tree.nil)))))) 12963 (.named 19) (.node (.node (.node (.node (.node (.node
  (.node Tree.nil 12966 (.signature 6) Tree.nil) 12967 (.other 10) Tree.nil) 12970 (.signature 6) (.node (.node Tree.nil 12971 (.signature 6)
  Tree.nil) 12972 (.named 19) Tree.nil)) 12976 (.named 1268) (.node (.node (.node Tree.nil 12977 (.string) Tree.nil) 12978 (.named 1268) Tree.nil)
  12979 (.pointer (.named 1268)) (.node (.node Tree.nil 12983 (.signature 6) Tree.nil) 12985 (.named 19) Tree.nil))) 12988 (.signature 6) (.node
  (.node (.node (.node Tree.nil 12989 (.other 10) Tree.nil) 12991 (.named 1209) Tree.nil) 12993 (.named 1209) (.node (.node Tree.nil 12994 (.named
  1209) Tree.nil) 12995 (.named 1209) Tree.nil)) 12997 (.named 1209) (.node (.node (.node Tree.nil 12998 (.signature 6) Tree.nil) 12999 (.signature
  6) Tree.nil) 13000 (.named 19) (.node Tree.nil 13004 (.named 1268) Tree.nil)))) 13005 (.string) (.node (.node (.node (.node (.node Tree.nil 13006
  (.named 1268) Tree.nil) 13007 (.pointer (.named 1268)) Tree.nil) 13011 (.signature 6) (.node (.node Tree.nil 13013 (.named 19) Tree.nil) 13016
  (.signature 6) Tree.nil)) 13017 (.other 10) (.node (.node (.node Tree.nil 13019 (.named 1232) Tree.nil) 13021 (.named 1232) Tree.nil) 13022
  (.named 1232) (.node Tree.nil 13023 (.named 1232) Tree.nil))) 13025 (.named 1232) (.node (.node (.node (.node Tree.nil 13026 (.signature 6)
  Tree.nil) 13027 (.signature 6) Tree.nil) 13028 (.named 19) (.node (.node Tree.nil 13032 (.named 1268) Tree.nil) 13033 (.string) Tree.nil)) 13034
  (.named 1268) (.node (.node (.node Tree.nil 13035 (.pointer (.named 1268)) Tree.nil) 13039 (.named 1268) Tree.nil) 13040 (.string) (.node Tree.nil
  13041 (.string) Tree.nil))))) 13044 (.struct 1) (.node (.node (.node (.node (.node (.node Tree.nil 13047 (.pointer (.named 1268)) Tree.nil) 13048
  (.named 1268) Tree.nil) 13049 (.pointer (.named 1268)) (.node (.node Tree.nil 13052 (.signature 11) Tree.nil) 13054 (.string) Tree.nil)) 13057
  (.signature 11) (.node (.node (.node Tree.nil 13058 (.pointer (.named 1268)) Tree.nil) 13059 (.string) Tree.nil) 13060 (.string) (.node (.node
  Tree.nil 13064 (.pointer (.named 1268)) Tree.nil) 13065 (.named 1268) Tree.nil))) 13066 (.pointer (.named 1268)) (.node (.node (.node (.node
  Tree.nil 13069 (.signature 11) Tree.nil) 13071 (.string) Tree.nil) 13074 (.signature 11) (.node (.node Tree.nil 13075 (.pointer (.named 1268))
  Tree.nil) 13076 (.string) Tree.nil)) 13077 (.string) (.node (.node (.node Tree.nil 13081 (.pointer (.named 1268)) Tree.nil) 13082 (.named 1268)
  Tree.nil) 13083 (.pointer (.named 1268)) (.node Tree.nil 13086 (.signature 23) Tree.nil)))) 13088 (.string) (.node (.node (.node (.node (.node
  Tree.nil 13089 (.string) Tree.nil) 13090 (.map (.string) (.string)) Tree.nil) 13093 (.signature 23) (.node (.node Tree.nil 13094 (.untypedNil)
  Tree.nil) 13098 (.pointer (.named 1268)) Tree.nil)) 13099 (.named 1268) (.node (.node (.node Tree.nil 13100 (.pointer (.named 1268)) Tree.nil)
  13103 (.signature 6) Tree.nil) 13105 (.named 19) (.node Tree.nil 13108 (.signature 6) Tree.nil))) 13109 (.untypedNil) (.node (.node (.node (.node
  Tree.nil 13113 (.pointer (.named 1268)) Tree.nil) 13114 (.named 1268) Tree.nil) 13115 (.pointer (.named 1268)) (.node (.node Tree.nil 13118
  (.signature 11) Tree.nil) 13120 (.string) Tree.nil)) 13123 (.signature 11) (.node (.node (.node Tree.nil 13124 (.pointer (.named 1268)) Tree.nil)
  13125 (.signature 11) Tree.nil) 13126 (.signature 11) (.node Tree.nil 13127 (.string) Tree.nil)))))))
/-- Constant values of expressions. -/
def valueTable : Tree Const := (.node (.node (.node (.node Tree.nil 12862 (.str s30) Tree.nil) 12888 (.str s31) (.node Tree.nil 12903 (.str s32)
  Tree.nil)) 12918 (.str s33) (.node (.node Tree.nil 12933 (.str s34) Tree.nil) 12945 (.other) Tree.nil)) 12955 (.str s35) (.node (.node (.node
  Tree.nil 12967 (.other) Tree.nil) 12977 (.str s35) (.node Tree.nil 12989 (.other) Tree.nil)) 13005 (.str s35) (.node (.node Tree.nil 13017
  (.other) Tree.nil) 13033 (.str s35) Tree.nil)))
/-- `typeutil.Callee` of call expressions. -/
def calleeTable : Tree Nat := (.node (.node (.node (.node Tree.nil 12799 (1207) Tree.nil) 12812 (1230) Tree.nil) 12824 (1259) (.node (.node Tree.nil
  12829 (1258) Tree.nil) 12840 (1259) Tree.nil)) 12843 (1258) (.node (.node (.node Tree.nil 12950 (1208) Tree.nil) 12972 (1231) Tree.nil) 13000
  (1210) (.node (.node Tree.nil 13028 (1233) Tree.nil) 13127 (1270) Tree.nil)))
/-- `Info.Uses`. -/
def usesTable : Tree Nat := (.node (.node (.node (.node (.node (.node (.node Tree.nil 12792 (19) Tree.nil) 12797 (1207) Tree.nil) 12805 (19) (.node
  Tree.nil 12810 (1230) Tree.nil)) 12818 (19) (.node (.node Tree.nil 12823 (1259) Tree.nil) 12826 (1275) (.node Tree.nil 12827 (1258) Tree.nil)))
  12835 (19) (.node (.node (.node Tree.nil 12839 (1259) Tree.nil) 12841 (1258) (.node Tree.nil 12852 (1257) Tree.nil)) 12857 (19) (.node (.node
  Tree.nil 12861 (1268) Tree.nil) 12870 (1257) (.node Tree.nil 12874 (1257) Tree.nil)))) 12881 (19) (.node (.node (.node (.node Tree.nil 12886
  (1211) Tree.nil) 12896 (19) (.node Tree.nil 12901 (1234) Tree.nil)) 12911 (19) (.node (.node Tree.nil 12916 (1217) Tree.nil) 12926 (19) (.node
  Tree.nil 12931 (1240) Tree.nil))) 12941 (19) (.node (.node (.node Tree.nil 12945 (21) Tree.nil) 12948 (1208) (.node Tree.nil 12954 (1268)
  Tree.nil)) 12963 (19) (.node (.node Tree.nil 12967 (21) Tree.nil) 12970 (1231) (.node Tree.nil 12976 (1268) Tree.nil))))) 12985 (19) (.node (.node
  (.node (.node (.node Tree.nil 12989 (21) Tree.nil) 12993 (1209) (.node Tree.nil 12997 (1276) Tree.nil)) 12998 (1210) (.node (.node Tree.nil 13004
  (1268) Tree.nil) 13013 (19) (.node Tree.nil 13017 (21) Tree.nil))) 13021 (1232) (.node (.node (.node Tree.nil 13025 (1277) Tree.nil) 13026 (1233)
  (.node Tree.nil 13032 (1268) Tree.nil)) 13041 (16) (.node (.node Tree.nil 13048 (1268) Tree.nil) 13054 (16) (.node Tree.nil 13058 (1278)
  Tree.nil)))) 13059 (105) (.node (.node (.node (.node Tree.nil 13065 (1268) Tree.nil) 13071 (16) (.node Tree.nil 13075 (1279) Tree.nil)) 13076
  (105) (.node (.node Tree.nil 13082 (1268) Tree.nil) 13088 (16) (.node Tree.nil 13089 (16) Tree.nil))) 13094 (23) (.node (.node (.node Tree.nil
  13099 (1268) Tree.nil) 13105 (19) (.node Tree.nil 13109 (23) Tree.nil)) 13114 (1268) (.node (.node Tree.nil 13120 (16) Tree.nil) 13124 (1282)
  (.node Tree.nil 13125 (1270) Tree.nil))))))
/-- `Info.Selections`. -/
def selectionTable : Tree (GoType × Nat) := (.node (.node (.node Tree.nil 12828 ((.named 1257, 1258)) Tree.nil) 12842 ((.named 1257, 1258)) (.node
  Tree.nil 12999 ((.named 1209, 1210)) Tree.nil)) 13027 ((.named 1232, 1233)) (.node (.node Tree.nil 13060 ((.pointer (.named 1268), 105)) Tree.nil)
  13077 ((.pointer (.named 1268), 105)) (.node Tree.nil 13126 ((.pointer (.named 1268), 1270)) Tree.nil)))
/-- Identifiers that are names of imported packages. -/
def pkgNameTable : Tree GoString := (.node (.node (.node (.node Tree.nil 12796 (s1) Tree.nil) 12809 (s4) Tree.nil) 12885 (s1) (.node (.node Tree.nil
  12900 (s4) Tree.nil) 12915 (s1) Tree.nil)) 12930 (s4) (.node (.node (.node Tree.nil 12947 (s1) Tree.nil) 12969 (s4) Tree.nil) 12992 (s1) (.node
  Tree.nil 13020 (s4) Tree.nil)))
/-- Method sets. -/
def methodSetTable : Tree (List (GoString × Nat)) := (.node (.node (.node (.node Tree.nil 27 ([(s29, 1386)]) Tree.nil) 95 ([(s29, 20)]) (.node
  Tree.nil 6045 ([(s17, 1210)]) Tree.nil)) 6046 ([(s17, 1210)]) (.node (.node Tree.nil 6056 ([(s28, 1215), (s22, 1212), (s26, 1214), (s29, 1216),
  (s25, 1213)]) Tree.nil) 6086 ([(s22, 1218), (s29, 1219)]) Tree.nil)) 6160 ([(s17, 1233)]) (.node (.node (.node Tree.nil 6161 ([(s17, 1233)])
  Tree.nil) 6171 ([(s28, 1238), (s22, 1235), (s26, 1237), (s29, 1239), (s25, 1236)]) (.node Tree.nil 6201 ([(s22, 1241), (s29, 1242)]) Tree.nil))
  6285 ([(s9, 1258)]) (.node (.node Tree.nil 6286 ([(s9, 1258)]) Tree.nil) 6341 ([(s28, 1272), (s22, 1269), (s26, 1271), (s29, 1273), (s25, 1270)])
  Tree.nil)))
/-- Types implementing `error`. -/
def implErrorTable : Tree Unit := (.node (.node (.node Tree.nil 27 (()) Tree.nil) 95 (()) (.node Tree.nil 6056 (()) Tree.nil)) 6086 (()) (.node
  (.node Tree.nil 6171 (()) Tree.nil) 6201 (()) (.node Tree.nil 6341 (()) Tree.nil)))
/-- Types implementing `error` with a code. -/
def implCodeTable : Tree Unit := (.node (.node (.node Tree.nil 6056 (()) Tree.nil) 6086 (()) Tree.nil) 6171 (()) (.node (.node Tree.nil 6201 (())
  Tree.nil) 6341 (()) Tree.nil))
/-- Types implementing `error` with a cause. -/
def implCauseTable : Tree Unit := (.node (.node Tree.nil 6056 (()) Tree.nil) 6171 (()) (.node Tree.nil 6341 (()) Tree.nil))
/-- Signatures: types of parameters, variadic, number of results. -/
def sigTable : Tree (List GoType × Bool × Nat) := (.node (.node (.node Tree.nil 6 (([], false, 1)) Tree.nil) 11 (([], false, 1)) Tree.nil) 23 (([],
  false, 1)) (.node Tree.nil 140 (([], false, 1)) Tree.nil))
/-- Tuples of results. -/
def tupleTable : Tree (List GoType) := Tree.nil
/-- Fields of structs. -/
def structTable : Tree (List (GoString × GoType)) := (.node (.node Tree.nil 1 ([(s24, .string)]) Tree.nil) 2 ([]) Tree.nil)
/-- Underlying types of named types. -/
def underlyingTable : Tree GoType := (.node (.node (.node (.node Tree.nil 19 (.interface 5) Tree.nil) 1209 (.struct 2) Tree.nil) 1211 (.struct 1)
  (.node Tree.nil 1217 (.struct 1) Tree.nil)) 1232 (.struct 2) (.node (.node (.node Tree.nil 1234 (.struct 1) Tree.nil) 1240 (.struct 1) Tree.nil)
  1257 (.struct 2) (.node Tree.nil 1268 (.struct 1) Tree.nil)))
/-- Which types implement which interfaces. -/
def implTable : Tree (Tree Unit) := (.node Tree.nil 5 ((.node (.node (.node Tree.nil 27 (()) Tree.nil) 95 (()) (.node Tree.nil 6056 (()) Tree.nil))
  6086 (()) (.node (.node Tree.nil 6171 (()) Tree.nil) 6201 (()) (.node Tree.nil 6341 (()) Tree.nil)))) Tree.nil)
/-- Comments at return statements (`ast.NewCommentMap`). -/
def commentTable : Tree (List (List GoString)) := (.node (.node (.node (.node Tree.nil 12800 ([[s36]]) Tree.nil) 12813 ([[s37]]) Tree.nil) 12844
  ([[s38]]) (.node (.node Tree.nil 12891 ([[s39]]) Tree.nil) 12906 ([[s40]]) Tree.nil)) 12921 ([[s41]]) (.node (.node (.node Tree.nil 12936
  ([[s42]]) Tree.nil) 12951 ([[s43]]) Tree.nil) 12973 ([[s44]]) (.node (.node Tree.nil 13001 ([[s45]]) Tree.nil) 13029 ([[s45]]) Tree.nil)))
/-- Function declarations. -/
def declTable : Tree DeclInfo := (.node (.node (.node (.node (.node Tree.nil 0 (⟨s0, true, none, some (CommentText.text [s46, s47, s48, s47, s49]),
  12802, 1253, []⟩) Tree.nil) 1 (⟨s3, true, none, some (CommentText.text [s50, s47, s48, s47, s49]), 12815, 1254, []⟩) Tree.nil) 2 (⟨s6, true, none,
  some (CommentText.text [s51, s47, s48, s47, s49]), 12832, 1255, []⟩) (.node Tree.nil 3 (⟨s10, true, none, some (CommentText.text [s52, s47, s48,
  s47, s49]), 12846, 1256, []⟩) Tree.nil)) 4 (⟨s9, false, some 12852, none, 12867, 1258, []⟩) (.node (.node (.node Tree.nil 5 (⟨s8, false, none,
  none, 12878, 1259, []⟩) Tree.nil) 6 (⟨s11, true, none, some (CommentText.text [s53, s47, s48, s47, s54]), 12893, 1260, []⟩) Tree.nil) 7 (⟨s12,
  true, none, some (CommentText.text [s55, s47, s48, s47, s56]), 12908, 1261, []⟩) (.node Tree.nil 8 (⟨s13, true, none, some (CommentText.text [s57,
  s58, s47, s48, s47, s59]), 12923, 1262, []⟩) Tree.nil))) 9 (⟨s14, true, none, some (CommentText.text [s60, s58, s47, s48, s47, s61]), 12938, 1263,
  []⟩) (.node (.node (.node (.node Tree.nil 10 (⟨s15, true, none, some (CommentText.text [s48, s47, s62]), 12960, 1264, []⟩) Tree.nil) 11 (⟨s18,
  true, none, some (CommentText.text [s48, s47, s62]), 12982, 1265, []⟩) Tree.nil) 12 (⟨s19, true, none, some (CommentText.text [s48, s47, s62]),
  13010, 1266, []⟩) (.node Tree.nil 13 (⟨s21, true, none, some (CommentText.text [s48, s47, s62]), 13038, 1267, []⟩) Tree.nil)) 14 (⟨s22, true, some
  13049, none, 13063, 1269, [⟨13047, s23, (some 19)⟩]⟩) (.node (.node (.node Tree.nil 15 (⟨s25, true, some 13066, none, 13080, 1270, [⟨13064, s23,
  (some 20)⟩]⟩) Tree.nil) 16 (⟨s26, true, some 13083, none, 13097, 1271, [⟨13081, s23, (some 21)⟩]⟩) Tree.nil) 17 (⟨s28, true, some 13100, none,
  13112, 1272, [⟨13098, s23, (some 22)⟩]⟩) (.node Tree.nil 18 (⟨s29, true, some 13115, none, 13130, 1273, [⟨13113, s23, (some 23)⟩]⟩) Tree.nil))))
/-- Named interfaces. -/
def interfaceTable : Tree Unit := (.node Tree.nil 19 (()) Tree.nil)
/-- Methods of named types. -/
def methodNameTable : Tree (List GoString) := (.node (.node (.node (.node Tree.nil 1209 ([s17]) Tree.nil) 1211 ([s22, s25, s26, s28, s29]) Tree.nil)
  1217 ([s22, s29]) (.node Tree.nil 1232 ([s17]) Tree.nil)) 1234 ([s22, s25, s26, s28, s29]) (.node (.node Tree.nil 1240 ([s22, s29]) Tree.nil) 1257
  ([s9]) (.node Tree.nil 1268 ([s22, s25, s26, s28, s29]) Tree.nil)))
/-- Objects of interface methods. -/
def methodObjTable : Tree Nat := Tree.nil
/-- Syntax and types of the package, and the facts exported by the packages it imports. -/
def env : Env where
  funcs := [f0, f1, f2, f3, f4, f5, f6, f7, f8, f9, f10, f11, f12, f13, f14, f15, f16, f17, f18]
  objects := objects
  typeOf := fun n => (typeTable.find n).getD (.other 0)
  value := valueTable.find
  callee := calleeTable.find
  uses := usesTable.find
  selection := selectionTable.find
  pkgName := pkgNameTable.find
  funcObj := fun f => ((declTable.find f).map (·.obj)).getD 0
  implError := fun t => has implErrorTable t
  implCode := fun t => has implCodeTable t
  sigResults := fun n => ((sigTable.find n).map (·.2.2)).getD 0
  methodSet := fun t name => ((typeKey t).bind methodSetTable.find).bind fun l => lookup name l
  functions := fun _ => none
  methods := fun _ => []
  comments := fun n => ((commentTable.find n).getD []).map CommentText.text
  isPrint := fun r => 32 ≤ r && r < 127
  facts := merge (merge (noFacts) (Check.factsOf multipackageInner1.result)) (Check.factsOf multipackageInner2.result)
/-- The package. -/
def package : Package where
  env := env
  decls := ⟨fun f => ((declTable.find f).map (·.name)).getD [], fun f => ((declTable.find f).map (·.exported)).getD false,
    fun f => (declTable.find f).bind (·.recv), fun f => (declTable.find f).bind (·.doc), fun t => has implCauseTable t,
    fun f => ((declTable.find f).map (·.pos)).getD 0⟩
  types := ⟨fun f => (((declTable.find f).bind (·.recv)).bind typeTable.find).getD (.other 0),
    fun f => ((declTable.find f).map (·.recvNames)).getD [], fun o => (interfaceTable.find o).isSome,
    fun o => (methodNameTable.find o).getD []⟩
  funcs := [0, 1, 2, 3, 4, 5, 6, 7, 8, 9, 10, 11, 12, 13, 14, 15, 16, 17, 18]
  specs := [⟨12851, .named 1257, some []⟩, ⟨13046, .named 1268, some [[s24]]⟩]
  ifaces := []
  methodObj := fun n => (methodObjTable.find n).getD 0
  conv := ⟨fun o => (underlyingTable.find o).getD (.other 0), fun n => ((sigTable.find n).map (·.1)).getD [],
    fun n => ((sigTable.find n).map (·.2.1)).getD false, fun n => (tupleTable.find n).getD [], fun n => (structTable.find n).getD [],
    fun t n => ((implTable.find n).map fun tr => has tr t).getD false⟩
  top := [
    .node (.other 12789 [.other 12786 [.basicLit 12785], .other 12788 [.basicLit 12787]]),
    .func 0,
    .func 1,
    .func 2,
    .func 3,
    .node (.other 12851 [.other 12850 [.ident ⟨12847, s63, (some 6)⟩, .other 12849 [.other 12848 []]]]),
    .func 4,
    .func 5,
    .func 6,
    .func 7,
    .func 8,
    .func 9,
    .func 10,
    .func 11,
    .func 12,
    .func 13,
    .node (.other 13046 [.other 13045 [.ident ⟨13039, s29, (some 7)⟩, .other 13044 [.other 13043 [.other 13042 [.ident ⟨13040, s24, (some 18)⟩,
  .ident ⟨13041, s64, none⟩]]]]]),
    .func 14,
    .func 15,
    .func 16,
    .func 17,
    .func 18]
/-- The run, in one order. -/
def result : Except Stop Outcome := runVerify package Check.source true
/-- What is expected.  The comments in the package say (with facts as `object: fact`):
```
multipackage.go:13: RunPackage1: ErrorCodes: hello-error
multipackage.go:22: RunPackage2: ErrorCodes: hello-error
multipackage.go:31: Trap1: ErrorCodes: hello-error
multipackage.go:41: Trap2: ErrorCodes: hello-error
multipackage.go:60: Inner1Error: ErrorCodes: inner1-error
multipackage.go:69: Inner2Error: ErrorCodes: inner2-error
multipackage.go:79: Inner1UnusedError: ErrorCodes: inner1-unused-error
multipackage.go:89: Inner2UnusedError: ErrorCodes: inner2-unused-error
multipackage.go:96: CallToUndeclared1: ErrorCodes: x-error
multipackage.go:98: function "CodeNotDeclared" in package "inner1" does not declare error codes
multipackage.go:106: CallToUndeclared2: ErrorCodes: x-error
multipackage.go:108: function "CodeNotDeclared" in package "inner2" does not declare error codes
multipackage.go:116: CallToUndeclared3: ErrorCodes: x-error
multipackage.go:119: called function does not declare error codes
multipackage.go:127: CallToUndeclared4: ErrorCodes: x-error
multipackage.go:130: called function does not declare error codes
multipackage.go:135: Error: ErrorType{Field:{Name:"TheCode", Position:0}, Codes:}
``` -/
def expected : Check.Expected where
  tags := []
  ifaces := []
  signatures := []
  claims := []
  bodies := [(10, { at_ := 12949, msg := Serum.Msg.foreignUndeclared b!"CodeNotDeclared" b!"inner1" }),
    (11, { at_ := 12971, msg := Serum.Msg.foreignUndeclared b!"CodeNotDeclared" b!"inner2" }),
    (12, { at_ := 12999, msg := Serum.Msg.calleeUndeclared }),
    (13, { at_ := 13027, msg := Serum.Msg.calleeUndeclared })]
  mismatches := []
  conversions := []
  codes := [(1207, [b!"hello-error"]),
    (1230, [b!"hello-error"]),
    (1253, [b!"hello-error"]),
    (1254, [b!"hello-error"]),
    (1255, [b!"hello-error"]),
    (1256, [b!"hello-error"]),
    (1260, [b!"inner1-error"]),
    (1261, [b!"inner2-error"]),
    (1262, [b!"inner1-unused-error"]),
    (1263, [b!"inner2-unused-error"]),
    (1264, [b!"x-error"]),
    (1265, [b!"x-error"]),
    (1266, [b!"x-error"]),
    (1267, [b!"x-error"])]
  ctors := []
  errorTypes := [(1211, { codes := [], field := some { name := b!"TheCode", position := 0 } }),
    (1217, { codes := [], field := some { name := b!"TheCode", position := 0 } }),
    (1234, { codes := [], field := some { name := b!"TheCode", position := 0 } }),
    (1240, { codes := [], field := some { name := b!"TheCode", position := 0 } }),
    (1268, { codes := [], field := some { name := b!"TheCode", position := 0 } })]
  interfaces := []
  objects := 1385

/-- What functions call, and which literals they visit. -/
def graph : Check.Graph :=
  [([], []), ([], []), ([4], []), ([4], []), ([], []), ([], []), ([], []), ([], []), ([], []), ([], []), ([], []), ([], []), ([], []), ([],
  []), ([], []), ([], []), ([], []), ([], []), ([15], [])]

theorem checked : Check.run package true expected graph = true := by decide +kernel

theorem imports : Check.Tables package.env.facts := ((tables_noFacts.merge multipackageInner1.exported).merge multipackageInner2.exported)

theorem exported : Check.Tables (Check.factsOf result) := Check.tables checked imports

/-- The facts known before a run: those exported by some run over the imported packages. -/
def Imported (F : Facts) : Prop :=
  ∃ F0 F1, multipackageInner1.Exports F0 ∧ multipackageInner2.Exports F1 ∧ F = merge (merge (noFacts) F0) F1

/-- The facts known after a run. -/
def Exports (F : Facts) : Prop := Check.Exports package Imported true F

theorem imports_same (F : Facts) (h : Imported F) : Props.Run.SameFacts package.env.facts F := by
  obtain ⟨F0, F1, h0, h1, rfl⟩ := h
  exact (Props.Run.SameFacts.merge (Props.Run.SameFacts.merge (.refl _) (multipackageInner1.exports_same h0)) (multipackageInner2.exports_same h1))

theorem exports_same {F : Facts} (h : Exports F) : Props.Run.SameFacts (Check.factsOf result) F :=
  Check.exports_same checked imports imports_same h

/-- **C54**: every run over the package has the expected result. -/
theorem always : Check.Always package Imported true expected :=
  Check.always checked imports imports_same

/-- For the nodes with diagnostics: file, line, and type of node. -/
def nodes : Tree (GoString × Nat × GoString) :=
  (.node (.node (.node Tree.nil 12949 ((b!"multipackage.go", 98, b!"SelectorExpr")) Tree.nil) 12971 ((b!"multipackage.go", 108, b!"SelectorExpr")) Tree.nil) 12999 ((b!"multipackage.go", 119, b!"SelectorExpr")) (.node Tree.nil 13027 ((b!"multipackage.go", 130, b!"SelectorExpr")) Tree.nil))

/-- The names of the objects named in diagnostics other than by identifiers. -/
def objectNames : Tree GoString :=
  Tree.nil

def names : Names where
  object := fun o => (objectNames.find o).getD []
  kind := fun n => ((nodes.find n).map fun p => p.2.2).getD []

def place (n : NodeId) : GoString × Nat := ((nodes.find n).map fun p => (p.1, p.2.1)).getD ([], 0)

/-- What is printed: file, line and text. -/
def lines : List Check.Line := [(b!"multipackage.go", 98, b!"function \"CodeNotDeclared\" in package \"inner1\" does not declare error codes"),
    (b!"multipackage.go", 108, b!"function \"CodeNotDeclared\" in package \"inner2\" does not declare error codes"),
    (b!"multipackage.go", 119, b!"called function does not declare error codes"),
    (b!"multipackage.go", 130, b!"called function does not declare error codes")]

/-- **C54**: for every run over the package, these lines are printed. -/
theorem prints : Check.Prints package Imported true names place lines :=
  Check.prints always (by decide +kernel)

end Serum.Testdata.multipackage
