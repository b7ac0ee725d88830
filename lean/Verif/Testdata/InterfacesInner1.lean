import Verif.Testdata.Support

/-!
# C54: the package analysis/testdata/src/interfaces/inner1

Generated by `scripts/conformance/testdata.py` from inner1.go.  Numbers of syntax nodes, objects and types are arbitrary.  The tables hold
what `go/parser` and `go/types` say about the package.
-/

set_option maxRecDepth 100000
set_option linter.all false

namespace Serum.Testdata.interfacesInner1
open Serum Serum.Testdata

def s0 : GoString := b!"FunctionForInterface1"
def s1 : GoString := b!"false"
def s2 : GoString := b!"v"
def s3 : GoString := b!"Inner1Method1"
def s4 : GoString := b!"a"
def s5 : GoString := b!"Inner1MethodWithoutError"
def s6 : GoString := b!"b"
def s7 : GoString := b!"Inner1Method2"
def s8 : GoString := b!"FunctionForInterface2"
def s9 : GoString := b!"true"
def s10 : GoString := b!"Inner1CodeNotDeclared"
def s11 : GoString := b!"FunctionForInterface3"
def s12 : GoString := b!"Inner1NoCodes"
def s13 : GoString := b!"Inner1YesCodes"
def s14 : GoString := b!"FunctionForAllInterfaces"
def s15 : GoString := b!"v2"
def s16 : GoString := b!"v3"
def s17 : GoString := b!"v1"
def s18 : GoString := b!"InterfaceMethod1"
def s19 : GoString := b!"InterfaceMethod2"
def s20 : GoString := b!"MethodWithoutError"
def s21 : GoString := b!"Code"
def s22 : GoString := b!"e"
def s23 : GoString := b!"TheCode"
def s24 : GoString := b!"Message"
def s25 : GoString := b!"Details"
def s26 : GoString := b!"nil"
def s27 : GoString := b!"Cause"
def s28 : GoString := b!"Error"
def s29 : GoString := b!"some-error"
def s30 : GoString := b!"interface-1-error"
def s31 : GoString := b!"interface-3-error"
def s32 : GoString := b!"interface-2-error"
def s33 : GoString := b!"interface-4-error"
def s34 : GoString := b!"SimpleInterfaceMethod"
def s35 : GoString := b!"// want \"called function does not declare error codes\""
def s36 : GoString := b!"// want InterfaceMethod1:\"ErrorCodes: interface-1-error\""
def s37 : GoString := b!"// want InterfaceMethod2:\"ErrorCodes: interface-3-error\""
def s38 : GoString := b!"// want InterfaceMethod1:\"ErrorCodes: interface-2-error\""
def s39 : GoString := b!"// want InterfaceMethod2:\"ErrorCodes: interface-4-error\""
def s40 : GoString := b!"// Errors:"
def s41 : GoString := b!"//"
def s42 : GoString := b!"//    - interface-1-error --"
def s43 : GoString := b!"//    - interface-2-error --"
def s44 : GoString := b!"//    - interface-3-error --"
def s45 : GoString := b!"//    - interface-4-error --"
def s46 : GoString := b!"//    - some-error --"
def s47 : GoString := b!"// InterfaceMethod1 is a method returning an error with error codes declared in doc."
def s48 : GoString := b!"//    - interface-1-error -- could potentially be returned"
def s49 : GoString := b!"//    - interface-3-error -- could potentially be returned"
def s50 : GoString := b!"// MethodWithoutError is just some method that does not return an error,"
def s51 : GoString := b!"// to test if it is correctly ignored in the analysis."
def s52 : GoString := b!"Inner1Interface1"
def s53 : GoString := b!"// SimpleInterfaceMethod is a method returning an error with error codes declared in doc."
def s54 : GoString := b!"//    - interface-2-error -- could potentially be returned"
def s55 : GoString := b!"SimpleInterface"
def s56 : GoString := b!"//    - inner1-error -- could potentially be returned"
def s57 : GoString := b!"SimpleInterfaceIncompatible"
def s58 : GoString := b!"Inner1Interface2"
def s59 : GoString := b!"Inner1Interface3"
def s60 : GoString := b!"error"
def s61 : GoString := b!"string"
def s62 : GoString := b!"ImplementOuter1"
def s63 : GoString := b!"ImplementOuterPointer1"
/-- inner1.go:62: `func FunctionForInterface1` -/
def f0 : FuncDef := ⟨7851, some ⟨7813, s0, (some 18)⟩, ⟨[⟨[⟨7814, s4, (some 19)⟩, ⟨7815, s6, (some 20)⟩], 7816⟩, ⟨[⟨7817, s2, (some 21)⟩], 7818⟩],
  (some [⟨[], 7822⟩]), 2366⟩, some [.other 7834 [.ident ⟨7826, s1, none⟩, .other 7833 [.ret 7832 [.call 7831 (.selector 7830 (.ident ⟨7828, s2,
  (some 21)⟩) ⟨7829, s3, none⟩) []]]], .assign 7842 [.ident ⟨7835, s4, (some 19)⟩] [.call 7841 (.selector 7838 (.ident ⟨7836, s2, (some 21)⟩) ⟨7837,
  s5, none⟩) [.ident ⟨7839, s6, (some 20)⟩, .ident ⟨7840, s4, (some 19)⟩]], .ret 7849 [.call 7848 (.selector 7845 (.ident ⟨7843, s2, (some 21)⟩)
  ⟨7844, s7, none⟩) [.ident ⟨7846, s4, (some 19)⟩, .ident ⟨7847, s6, (some 20)⟩]]], 2372, 2601⟩
/-- inner1.go:73: `func FunctionForInterface2` -/
def f1 : FuncDef := ⟨7876, some ⟨7852, s8, (some 22)⟩, ⟨[⟨[⟨7853, s2, (some 23)⟩], 7854⟩], (some [⟨[], 7857⟩]), 2686⟩, some [.other 7869 [.ident
  ⟨7861, s9, none⟩, .other 7868 [.ret 7867 [.call 7866 (.selector 7865 (.ident ⟨7863, s2, (some 23)⟩) ⟨7864, s10, none⟩) []]]], .ret 7874 [.unary
  7873 true (.compositeLit 7872 [.basicLit 7871])]], 2692, 2883⟩
/-- inner1.go:84: `func FunctionForInterface3` -/
def f2 : FuncDef := ⟨7901, some ⟨7877, s11, (some 24)⟩, ⟨[⟨[⟨7878, s2, (some 25)⟩], 7879⟩], (some [⟨[], 7882⟩]), 3004⟩, some [.other 7894 [.ident
  ⟨7886, s1, none⟩, .other 7893 [.ret 7892 [.call 7891 (.selector 7890 (.ident ⟨7888, s2, (some 25)⟩) ⟨7889, s12, none⟩) []]]], .ret 7899 [.call
  7898 (.selector 7897 (.ident ⟨7895, s2, (some 25)⟩) ⟨7896, s13, none⟩) []]], 3010, 3217⟩
/-- inner1.go:97: `func FunctionForAllInterfaces` -/
def f3 : FuncDef := ⟨7948, some ⟨7902, s14, (some 26)⟩, ⟨[⟨[⟨7903, s17, (some 27)⟩], 7904⟩, ⟨[⟨7905, s15, (some 28)⟩], 7906⟩, ⟨[⟨7907, s16, (some
  29)⟩], 7908⟩], (some [⟨[], 7913⟩]), 3442⟩, some [.other 7939 [.other 7938 [.caseClause 7923 [.ident ⟨7917, s9, none⟩] [.ret 7922 [.call 7921
  (.selector 7920 (.ident ⟨7918, s15, (some 28)⟩) ⟨7919, s10, none⟩) []]], .caseClause 7930 [.ident ⟨7924, s9, none⟩] [.ret 7929 [.call 7928
  (.selector 7927 (.ident ⟨7925, s16, (some 29)⟩) ⟨7926, s12, none⟩) []]], .caseClause 7937 [.ident ⟨7931, s9, none⟩] [.ret 7936 [.call 7935
  (.selector 7934 (.ident ⟨7932, s16, (some 29)⟩) ⟨7933, s13, none⟩) []]]]], .ret 7946 [.call 7945 (.selector 7942 (.ident ⟨7940, s17, (some 27)⟩)
  ⟨7941, s7, none⟩) [.basicLit 7943, .basicLit 7944]]], 3448, 3857⟩
/-- inner1.go:114: `func InterfaceMethod1` -/
def f4 : FuncDef := ⟨7969, some ⟨7957, s18, none⟩, ⟨[], (some [⟨[], 7959⟩]), 3975⟩, some [.ret 7967 [.unary 7966 true (.compositeLit 7965 [.basicLit
  7964])]], 3981, 4077⟩
/-- inner1.go:121: `func InterfaceMethod2` -/
def f5 : FuncDef := ⟨7989, some ⟨7973, s19, none⟩, ⟨[⟨[⟨7974, s4, (some 31)⟩, ⟨7975, s6, (some 32)⟩], 7976⟩], (some [⟨[], 7979⟩]), 4175⟩, some [.ret
  7987 [.unary 7986 true (.compositeLit 7985 [.basicLit 7984])]], 4181, 4277⟩
/-- inner1.go:125: `func MethodWithoutError` -/
def f6 : FuncDef := ⟨8006, some ⟨7993, s20, none⟩, ⟨[⟨[⟨7994, s4, (some 33)⟩, ⟨7995, s6, (some 34)⟩], 7996⟩], (some [⟨[], 7999⟩]), 4334⟩, some [.ret
  8004 [.ident ⟨8003, s4, (some 33)⟩]], 4341, 4354⟩
/-- inner1.go:134: `func InterfaceMethod1` -/
def f7 : FuncDef := ⟨8028, some ⟨8016, s18, none⟩, ⟨[], (some [⟨[], 8018⟩]), 4487⟩, some [.ret 8026 [.unary 8025 true (.compositeLit 8024 [.basicLit
  8023])]], 4493, 4589⟩
/-- inner1.go:141: `func InterfaceMethod2` -/
def f8 : FuncDef := ⟨8049, some ⟨8033, s19, none⟩, ⟨[⟨[⟨8034, s4, (some 36)⟩, ⟨8035, s6, (some 37)⟩], 8036⟩], (some [⟨[], 8039⟩]), 4695⟩, some [.ret
  8047 [.unary 8046 true (.compositeLit 8045 [.basicLit 8044])]], 4701, 4797⟩
/-- inner1.go:145: `func MethodWithoutError` -/
def f9 : FuncDef := ⟨8067, some ⟨8054, s20, none⟩, ⟨[⟨[⟨8055, s4, (some 38)⟩, ⟨8056, s6, (some 39)⟩], 8057⟩], (some [⟨[], 8060⟩]), 4862⟩, some [.ret
  8065 [.ident ⟨8064, s4, (some 38)⟩]], 4869, 4882⟩
/-- inner1.go:153: `func Code` -/
def f10 : FuncDef := ⟨8092, some ⟨8081, s21, none⟩, ⟨[], (some [⟨[], 8083⟩]), 5016⟩, some [.ret 8090 [.selector 8089 (.ident ⟨8087, s22, (some 41)⟩)
  ⟨8088, s23, none⟩]], 5037, 5057⟩
/-- inner1.go:154: `func Message` -/
def f11 : FuncDef := ⟨8109, some ⟨8098, s24, none⟩, ⟨[], (some [⟨[], 8100⟩]), 5084⟩, some [.ret 8107 [.selector 8106 (.ident ⟨8104, s22, (some 42)⟩)
  ⟨8105, s23, none⟩]], 5102, 5122⟩
/-- inner1.go:155: `func Details` -/
def f12 : FuncDef := ⟨8126, some ⟨8115, s25, none⟩, ⟨[], (some [⟨[], 8119⟩]), 5149⟩, some [.ret 8124 [.ident ⟨8123, s26, none⟩]], 5167, 5181⟩
/-- inner1.go:156: `func Cause` -/
def f13 : FuncDef := ⟨8141, some ⟨8132, s27, none⟩, ⟨[], (some [⟨[], 8134⟩]), 5206⟩, some [.ret 8139 [.ident ⟨8138, s26, none⟩]], 5226, 5240⟩
/-- inner1.go:157: `func Error` -/
def f14 : FuncDef := ⟨8159, some ⟨8147, s28, none⟩, ⟨[], (some [⟨[], 8149⟩]), 5265⟩, some [.ret 8157 [.call 8156 (.selector 8155 (.ident ⟨8153, s22,
  (some 45)⟩) ⟨8154, s24, none⟩) []]], 5285, 5307⟩
/-- The objects of go/ast, in the order of their numbers. -/
def objects : List ObjInfo := [
  ⟨.typ, 21, .typeSpec⟩,
  ⟨.fun_, 318, .other⟩,
  ⟨.fun_, 520, .other⟩,
  ⟨.var, 534, .other⟩,
  ⟨.var, 537, .other⟩,
  ⟨.typ, 4889, .typeSpec⟩,
  ⟨.fun_, 758, .other⟩,
  ⟨.var, 783, .other⟩,
  ⟨.var, 786, .other⟩,
  ⟨.typ, 811, .typeSpec⟩,
  ⟨.fun_, 1135, .other⟩,
  ⟨.typ, 1253, .typeSpec⟩,
  ⟨.fun_, 1536, .other⟩,
  ⟨.typ, 1631, .typeSpec⟩,
  ⟨.fun_, 1661, .other⟩,
  ⟨.typ, 1783, .typeSpec⟩,
  ⟨.fun_, 1871, .other⟩,
  ⟨.fun_, 2077, .other⟩,
  ⟨.fun_, 2311, (.funcDecl 0)⟩,
  ⟨.var, 2333, .other⟩,
  ⟨.var, 2336, .other⟩,
  ⟨.var, 2346, .other⟩,
  ⟨.fun_, 2644, (.funcDecl 1)⟩,
  ⟨.var, 2666, .other⟩,
  ⟨.fun_, 2962, (.funcDecl 2)⟩,
  ⟨.var, 2984, .other⟩,
  ⟨.fun_, 3354, (.funcDecl 3)⟩,
  ⟨.var, 3379, .other⟩,
  ⟨.var, 3400, .other⟩,
  ⟨.var, 3421, .other⟩,
  ⟨.typ, 3864, .typeSpec⟩,
  ⟨.var, 4162, .other⟩,
  ⟨.var, 4165, .other⟩,
  ⟨.var, 4321, .other⟩,
  ⟨.var, 4324, .other⟩,
  ⟨.typ, 4361, .typeSpec⟩,
  ⟨.var, 4682, .other⟩,
  ⟨.var, 4685, .other⟩,
  ⟨.var, 4849, .other⟩,
  ⟨.var, 4852, .other⟩,
  ⟨.var, 4975, .other⟩,
  ⟨.var, 4999, .other⟩,
  ⟨.var, 5064, .other⟩,
  ⟨.var, 5129, .other⟩,
  ⟨.var, 5188, .other⟩,
  ⟨.var, 5247, .other⟩]
/-- Types of expressions (`Info.Types`, `Info.Defs`, `Info.Uses`). -/
def typeTable : Tree GoType := (.node (.node (.node (.node (.node (.node (.node (.node Tree.nil 7723 (.named 769) Tree.nil) 7724 (.signature 6)
  (.node Tree.nil 7726 (.named 19) Tree.nil)) 7729 (.signature 6) (.node (.node Tree.nil 7731 (.signature 80) Tree.nil) 7734 (.string) (.node
  Tree.nil 7737 (.named 786) Tree.nil))) 7738 (.pointer (.named 786)) (.node (.node (.node Tree.nil 7741 (.signature 80) Tree.nil) 7743 (.signature
  81) (.node Tree.nil 7746 (.string) Tree.nil)) 7749 (.string) (.node (.node Tree.nil 7752 (.signature 81) Tree.nil) 7755 (.interface 79)
  Tree.nil))) 7758 (.named 770) (.node (.node (.node (.node Tree.nil 7759 (.signature 6) Tree.nil) 7761 (.named 19) (.node Tree.nil 7764 (.signature
  6) Tree.nil)) 7767 (.interface 78) (.node (.node Tree.nil 7770 (.named 771) Tree.nil) 7771 (.signature 6) Tree.nil)) 7773 (.named 19) (.node
  (.node (.node Tree.nil 7776 (.signature 6) Tree.nil) 7779 (.interface 78) (.node Tree.nil 7782 (.named 772) Tree.nil)) 7783 (.signature 6) (.node
  (.node Tree.nil 7785 (.named 19) Tree.nil) 7788 (.signature 6) Tree.nil)))) 7791 (.interface 77) (.node (.node (.node (.node (.node Tree.nil 7794
  (.named 773) Tree.nil) 7795 (.signature 6) (.node Tree.nil 7797 (.named 19) Tree.nil)) 7800 (.signature 6) (.node (.node Tree.nil 7802 (.signature
  6) Tree.nil) 7804 (.named 19) (.node Tree.nil 7807 (.signature 6) Tree.nil))) 7810 (.interface 76) (.node (.node (.node Tree.nil 7813 (.signature
  82) Tree.nil) 7814 (.string) (.node Tree.nil 7815 (.string) Tree.nil)) 7816 (.string) (.node (.node Tree.nil 7817 (.named 769) Tree.nil) 7818
  (.named 769) Tree.nil))) 7822 (.named 19) (.node (.node (.node (.node Tree.nil 7825 (.signature 82) Tree.nil) 7826 (.other 10) (.node Tree.nil
  7828 (.named 769) Tree.nil)) 7829 (.signature 6) (.node (.node Tree.nil 7830 (.signature 6) Tree.nil) 7831 (.named 19) Tree.nil)) 7835 (.string)
  (.node (.node (.node Tree.nil 7836 (.named 769) Tree.nil) 7837 (.signature 81) (.node Tree.nil 7838 (.signature 81) Tree.nil)) 7839 (.string)
  (.node (.node Tree.nil 7840 (.string) Tree.nil) 7841 (.string) Tree.nil))))) 7843 (.named 769) (.node (.node (.node (.node (.node (.node Tree.nil
  7844 (.signature 80) Tree.nil) 7845 (.signature 80) (.node Tree.nil 7846 (.string) Tree.nil)) 7847 (.string) (.node (.node Tree.nil 7848 (.pointer
  (.named 786)) Tree.nil) 7852 (.signature 83) (.node Tree.nil 7853 (.named 772) Tree.nil))) 7854 (.named 772) (.node (.node (.node Tree.nil 7857
  (.named 19) Tree.nil) 7860 (.signature 83) (.node Tree.nil 7861 (.other 10) Tree.nil)) 7863 (.named 772) (.node (.node Tree.nil 7864 (.signature
  6) Tree.nil) 7865 (.signature 6) Tree.nil))) 7866 (.named 19) (.node (.node (.node (.node Tree.nil 7870 (.named 786) Tree.nil) 7871 (.string)
  (.node Tree.nil 7872 (.named 786) Tree.nil)) 7873 (.pointer (.named 786)) (.node (.node Tree.nil 7877 (.signature 84) Tree.nil) 7878 (.named 773)
  Tree.nil)) 7879 (.named 773) (.node (.node (.node Tree.nil 7882 (.named 19) Tree.nil) 7885 (.signature 84) (.node Tree.nil 7886 (.other 10)
  Tree.nil)) 7888 (.named 773) (.node (.node Tree.nil 7889 (.signature 6) Tree.nil) 7890 (.signature 6) Tree.nil)))) 7891 (.named 19) (.node (.node
  (.node (.node (.node Tree.nil 7895 (.named 773) Tree.nil) 7896 (.signature 6) (.node Tree.nil 7897 (.signature 6) Tree.nil)) 7898 (.named 19)
  (.node (.node Tree.nil 7902 (.signature 85) Tree.nil) 7903 (.named 769) (.node Tree.nil 7904 (.named 769) Tree.nil))) 7905 (.named 772) (.node
  (.node (.node Tree.nil 7906 (.named 772) Tree.nil) 7907 (.named 773) (.node Tree.nil 7908 (.named 773) Tree.nil)) 7913 (.named 19) (.node (.node
  Tree.nil 7916 (.signature 85) Tree.nil) 7917 (.other 10) Tree.nil))) 7918 (.named 772) (.node (.node (.node (.node Tree.nil 7919 (.signature 6)
  Tree.nil) 7920 (.signature 6) (.node Tree.nil 7921 (.named 19) Tree.nil)) 7924 (.other 10) (.node (.node Tree.nil 7925 (.named 773) Tree.nil) 7926
  (.signature 6) Tree.nil)) 7927 (.signature 6) (.node (.node (.node Tree.nil 7928 (.named 19) Tree.nil) 7931 (.other 10) (.node Tree.nil 7932
  (.named 773) Tree.nil)) 7933 (.signature 6) (.node (.node Tree.nil 7934 (.signature 6) Tree.nil) 7935 (.named 19) Tree.nil)))))) 7940 (.named 769)
  (.node (.node (.node (.node (.node (.node (.node Tree.nil 7941 (.signature 80) Tree.nil) 7942 (.signature 80) (.node Tree.nil 7943 (.string)
  Tree.nil)) 7944 (.string) (.node (.node Tree.nil 7945 (.pointer (.named 786)) Tree.nil) 7949 (.named 778) (.node Tree.nil 7951 (.struct 2)
  Tree.nil))) 7954 (.named 778) (.node (.node (.node Tree.nil 7957 (.signature 6) Tree.nil) 7959 (.named 19) (.node Tree.nil 7962 (.signature 6)
  Tree.nil)) 7963 (.named 786) (.node (.node Tree.nil 7964 (.string) Tree.nil) 7965 (.named 786) Tree.nil))) 7966 (.pointer (.named 786)) (.node
  (.node (.node (.node Tree.nil 7970 (.named 778) Tree.nil) 7973 (.signature 27) (.node Tree.nil 7974 (.string) Tree.nil)) 7975 (.string) (.node
  (.node Tree.nil 7976 (.string) Tree.nil) 7979 (.named 19) Tree.nil)) 7982 (.signature 27) (.node (.node (.node Tree.nil 7983 (.named 786)
  Tree.nil) 7984 (.string) (.node Tree.nil 7985 (.named 786) Tree.nil)) 7986 (.pointer (.named 786)) (.node (.node Tree.nil 7990 (.named 778)
  Tree.nil) 7993 (.signature 81) Tree.nil)))) 7994 (.string) (.node (.node (.node (.node (.node Tree.nil 7995 (.string) Tree.nil) 7996 (.string)
  (.node Tree.nil 7999 (.string) Tree.nil)) 8002 (.signature 81) (.node (.node Tree.nil 8003 (.string) Tree.nil) 8007 (.named 782) (.node Tree.nil
  8009 (.struct 2) Tree.nil))) 8012 (.named 782) (.node (.node (.node Tree.nil 8013 (.pointer (.named 782)) Tree.nil) 8016 (.signature 6) (.node
  Tree.nil 8018 (.named 19) Tree.nil)) 8021 (.signature 6) (.node (.node Tree.nil 8022 (.named 786) Tree.nil) 8023 (.string) Tree.nil))) 8024
  (.named 786) (.node (.node (.node (.node Tree.nil 8025 (.pointer (.named 786)) Tree.nil) 8029 (.named 782) (.node Tree.nil 8030 (.pointer (.named
  782)) Tree.nil)) 8033 (.signature 27) (.node (.node Tree.nil 8034 (.string) Tree.nil) 8035 (.string) Tree.nil)) 8036 (.string) (.node (.node
  (.node Tree.nil 8039 (.named 19) Tree.nil) 8042 (.signature 27) (.node Tree.nil 8043 (.named 786) Tree.nil)) 8044 (.string) (.node (.node Tree.nil
  8045 (.named 786) Tree.nil) 8046 (.pointer (.named 786)) Tree.nil))))) 8050 (.named 782) (.node (.node (.node (.node (.node (.node Tree.nil 8051
  (.pointer (.named 782)) Tree.nil) 8054 (.signature 81) (.node Tree.nil 8055 (.string) Tree.nil)) 8056 (.string) (.node (.node Tree.nil 8057
  (.string) Tree.nil) 8060 (.string) (.node Tree.nil 8063 (.signature 81) Tree.nil))) 8064 (.string) (.node (.node (.node Tree.nil 8068 (.named 786)
  Tree.nil) 8069 (.string) (.node Tree.nil 8070 (.string) Tree.nil)) 8073 (.struct 1) (.node (.node Tree.nil 8076 (.pointer (.named 786)) Tree.nil)
  8077 (.named 786) Tree.nil))) 8078 (.pointer (.named 786)) (.node (.node (.node (.node Tree.nil 8081 (.signature 11) Tree.nil) 8083 (.string)
  (.node Tree.nil 8086 (.signature 11) Tree.nil)) 8087 (.pointer (.named 786)) (.node (.node Tree.nil 8088 (.string) Tree.nil) 8089 (.string)
  Tree.nil)) 8093 (.pointer (.named 786)) (.node (.node (.node Tree.nil 8094 (.named 786) Tree.nil) 8095 (.pointer (.named 786)) (.node Tree.nil
  8098 (.signature 11) Tree.nil)) 8100 (.string) (.node (.node Tree.nil 8103 (.signature 11) Tree.nil) 8104 (.pointer (.named 786)) Tree.nil))))
  8105 (.string) (.node (.node (.node (.node (.node Tree.nil 8106 (.string) Tree.nil) 8110 (.pointer (.named 786)) (.node Tree.nil 8111 (.named 786)
  Tree.nil)) 8112 (.pointer (.named 786)) (.node (.node Tree.nil 8115 (.signature 23) Tree.nil) 8117 (.string) Tree.nil)) 8118 (.string) (.node
  (.node (.node Tree.nil 8119 (.map (.string) (.string)) Tree.nil) 8122 (.signature 23) (.node Tree.nil 8123 (.untypedNil) Tree.nil)) 8127 (.pointer
  (.named 786)) (.node (.node Tree.nil 8128 (.named 786) Tree.nil) 8129 (.pointer (.named 786)) Tree.nil))) 8132 (.signature 6) (.node (.node (.node
  (.node Tree.nil 8134 (.named 19) Tree.nil) 8137 (.signature 6) (.node Tree.nil 8138 (.untypedNil) Tree.nil)) 8142 (.pointer (.named 786)) (.node
  (.node Tree.nil 8143 (.named 786) Tree.nil) 8144 (.pointer (.named 786)) Tree.nil)) 8147 (.signature 11) (.node (.node (.node Tree.nil 8149
  (.string) Tree.nil) 8152 (.signature 11) (.node Tree.nil 8153 (.pointer (.named 786)) Tree.nil)) 8154 (.signature 11) (.node (.node Tree.nil 8155
  (.signature 11) Tree.nil) 8156 (.string) Tree.nil)))))))
/-- Constant values of expressions. -/
def valueTable : Tree Const := (.node (.node (.node (.node Tree.nil 7826 (.other) Tree.nil) 7861 (.other) (.node Tree.nil 7871 (.str s29) Tree.nil))
  7886 (.other) (.node (.node Tree.nil 7917 (.other) Tree.nil) 7924 (.other) Tree.nil)) 7931 (.other) (.node (.node (.node Tree.nil 7943 (.str s4)
  Tree.nil) 7944 (.str s6) (.node Tree.nil 7964 (.str s30) Tree.nil)) 7984 (.str s31) (.node (.node Tree.nil 8023 (.str s32) Tree.nil) 8044 (.str
  s33) Tree.nil)))
/-- `typeutil.Callee` of call expressions. -/
def calleeTable : Tree Nat := (.node (.node (.node (.node Tree.nil 7831 (792) Tree.nil) 7841 (794) Tree.nil) 7848 (793) (.node (.node Tree.nil 7866
  (797) Tree.nil) 7891 (798) Tree.nil)) 7898 (799) (.node (.node (.node Tree.nil 7921 (797) Tree.nil) 7928 (798) Tree.nil) 7935 (799) (.node (.node
  Tree.nil 7945 (793) Tree.nil) 8156 (788) Tree.nil)))
/-- `Info.Uses`. -/
def usesTable : Tree Nat := (.node (.node (.node (.node (.node (.node (.node Tree.nil 7726 (19) Tree.nil) 7734 (16) Tree.nil) 7737 (786) (.node
  (.node Tree.nil 7746 (16) Tree.nil) 7749 (16) Tree.nil)) 7761 (19) (.node (.node (.node Tree.nil 7773 (19) Tree.nil) 7785 (19) Tree.nil) 7797 (19)
  (.node (.node Tree.nil 7804 (19) Tree.nil) 7816 (16) Tree.nil))) 7818 (769) (.node (.node (.node (.node Tree.nil 7822 (19) Tree.nil) 7826 (22)
  Tree.nil) 7828 (803) (.node (.node Tree.nil 7829 (792) Tree.nil) 7835 (801) Tree.nil)) 7836 (803) (.node (.node (.node Tree.nil 7837 (794)
  Tree.nil) 7839 (802) Tree.nil) 7840 (801) (.node (.node Tree.nil 7843 (803) Tree.nil) 7844 (793) Tree.nil)))) 7846 (801) (.node (.node (.node
  (.node (.node Tree.nil 7847 (802) Tree.nil) 7854 (772) Tree.nil) 7857 (19) (.node (.node Tree.nil 7861 (21) Tree.nil) 7863 (804) Tree.nil)) 7864
  (797) (.node (.node (.node Tree.nil 7870 (786) Tree.nil) 7879 (773) Tree.nil) 7882 (19) (.node (.node Tree.nil 7886 (22) Tree.nil) 7888 (805)
  Tree.nil))) 7889 (798) (.node (.node (.node (.node Tree.nil 7895 (805) Tree.nil) 7896 (799) Tree.nil) 7904 (769) (.node (.node Tree.nil 7906 (772)
  Tree.nil) 7908 (773) Tree.nil)) 7913 (19) (.node (.node (.node Tree.nil 7917 (21) Tree.nil) 7918 (807) Tree.nil) 7919 (797) (.node (.node Tree.nil
  7924 (21) Tree.nil) 7925 (808) Tree.nil))))) 7926 (798) (.node (.node (.node (.node (.node (.node Tree.nil 7931 (21) Tree.nil) 7932 (808)
  Tree.nil) 7933 (799) (.node (.node Tree.nil 7940 (806) Tree.nil) 7941 (793) Tree.nil)) 7954 (778) (.node (.node (.node Tree.nil 7959 (19)
  Tree.nil) 7963 (786) Tree.nil) 7970 (778) (.node (.node Tree.nil 7976 (16) Tree.nil) 7979 (19) Tree.nil))) 7983 (786) (.node (.node (.node (.node
  Tree.nil 7990 (778) Tree.nil) 7996 (16) Tree.nil) 7999 (16) (.node (.node Tree.nil 8003 (811) Tree.nil) 8012 (782) Tree.nil)) 8018 (19) (.node
  (.node (.node Tree.nil 8022 (786) Tree.nil) 8029 (782) Tree.nil) 8036 (16) (.node (.node Tree.nil 8039 (19) Tree.nil) 8043 (786) Tree.nil)))) 8050
  (782) (.node (.node (.node (.node (.node Tree.nil 8057 (16) Tree.nil) 8060 (16) Tree.nil) 8064 (815) (.node (.node Tree.nil 8070 (16) Tree.nil)
  8077 (786) Tree.nil)) 8083 (16) (.node (.node (.node Tree.nil 8087 (817) Tree.nil) 8088 (105) Tree.nil) 8094 (786) (.node (.node Tree.nil 8100
  (16) Tree.nil) 8104 (818) Tree.nil))) 8105 (105) (.node (.node (.node (.node Tree.nil 8111 (786) Tree.nil) 8117 (16) Tree.nil) 8118 (16) (.node
  (.node Tree.nil 8123 (23) Tree.nil) 8128 (786) Tree.nil)) 8134 (19) (.node (.node (.node Tree.nil 8138 (23) Tree.nil) 8143 (786) Tree.nil) 8149
  (16) (.node (.node Tree.nil 8153 (821) Tree.nil) 8154 (788) Tree.nil))))))
/-- `Info.Selections`. -/
def selectionTable : Tree (GoType × Nat) := (.node (.node (.node (.node Tree.nil 7830 ((.named 769, 792)) Tree.nil) 7838 ((.named 769, 794)) (.node
  Tree.nil 7845 ((.named 769, 793)) Tree.nil)) 7865 ((.named 772, 797)) (.node (.node Tree.nil 7890 ((.named 773, 798)) Tree.nil) 7897 ((.named 773,
  799)) Tree.nil)) 7920 ((.named 772, 797)) (.node (.node (.node Tree.nil 7927 ((.named 773, 798)) Tree.nil) 7934 ((.named 773, 799)) (.node
  Tree.nil 7942 ((.named 769, 793)) Tree.nil)) 8089 ((.pointer (.named 786), 105)) (.node (.node Tree.nil 8106 ((.pointer (.named 786), 105))
  Tree.nil) 8155 ((.pointer (.named 786), 788)) Tree.nil)))
/-- Identifiers that are names of imported packages. -/
def pkgNameTable : Tree GoString := Tree.nil
/-- Method sets. -/
def methodSetTable : Tree (List (GoString × Nat)) := (.node (.node (.node (.node Tree.nil 27 ([(s28, 1386)]) Tree.nil) 95 ([(s28, 20)]) (.node
  Tree.nil 382 ([(s12, 1403), (s13, 1402)]) Tree.nil)) 387 ([(s10, 1404)]) (.node (.node Tree.nil 392 ([(s34, 1405)]) Tree.nil) 397 ([(s3, 1407),
  (s7, 1408), (s5, 1406)]) (.node Tree.nil 3845 ([(s3, 792), (s7, 793), (s5, 794)]) Tree.nil))) 3850 ([(s34, 795)]) (.node (.node (.node Tree.nil
  3855 ([(s34, 796)]) Tree.nil) 3860 ([(s10, 797)]) (.node Tree.nil 3865 ([(s12, 798), (s13, 799)]) Tree.nil)) 3890 ([(s18, 779), (s19, 780), (s20,
  781)]) (.node (.node Tree.nil 3891 ([(s18, 779), (s19, 780), (s20, 781)]) Tree.nil) 3911 ([(s18, 783), (s19, 784), (s20, 785)]) (.node Tree.nil
  3931 ([(s27, 790), (s21, 787), (s25, 789), (s28, 791), (s24, 788)]) Tree.nil))))
/-- Types implementing `error`. -/
def implErrorTable : Tree Unit := (.node (.node Tree.nil 27 (()) Tree.nil) 95 (()) (.node Tree.nil 3931 (()) Tree.nil))
/-- Types implementing `error` with a code. -/
def implCodeTable : Tree Unit := (.node Tree.nil 3931 (()) Tree.nil)
/-- Types implementing `error` with a cause. -/
def implCauseTable : Tree Unit := (.node Tree.nil 3931 (()) Tree.nil)
/-- Signatures: types of parameters, variadic, number of results. -/
def sigTable : Tree (List GoType × Bool × Nat) := (.node (.node (.node (.node Tree.nil 6 (([], false, 1)) Tree.nil) 11 (([], false, 1)) Tree.nil) 23
  (([], false, 1)) (.node (.node Tree.nil 27 (([.string, .string], false, 1)) Tree.nil) 80 (([.string, .string], false, 1)) Tree.nil)) 81
  (([.string, .string], false, 1)) (.node (.node (.node Tree.nil 82 (([.string, .string, .named 769], false, 1)) Tree.nil) 83 (([.named 772], false,
  1)) Tree.nil) 84 (([.named 773], false, 1)) (.node Tree.nil 85 (([.named 769, .named 772, .named 773], false, 1)) Tree.nil)))
/-- Tuples of results. -/
def tupleTable : Tree (List GoType) := Tree.nil
/-- Fields of structs. -/
def structTable : Tree (List (GoString × GoType)) := (.node (.node Tree.nil 1 ([(s23, .string)]) Tree.nil) 2 ([]) Tree.nil)
/-- Underlying types of named types. -/
def underlyingTable : Tree GoType := (.node (.node (.node (.node Tree.nil 19 (.interface 5) Tree.nil) 769 (.interface 79) Tree.nil) 770 (.interface
  78) (.node Tree.nil 771 (.interface 78) Tree.nil)) 772 (.interface 77) (.node (.node (.node Tree.nil 773 (.interface 76) Tree.nil) 778 (.struct 2)
  Tree.nil) 782 (.struct 2) (.node Tree.nil 786 (.struct 1) Tree.nil)))
/-- Which types implement which interfaces. -/
def implTable : Tree (Tree Unit) := (.node (.node (.node Tree.nil 5 ((.node (.node Tree.nil 27 (()) Tree.nil) 95 (()) (.node Tree.nil 3931 (())
  Tree.nil))) Tree.nil) 76 ((.node (.node Tree.nil 382 (()) Tree.nil) 3865 (()) Tree.nil)) Tree.nil) 77 ((.node (.node Tree.nil 387 (()) Tree.nil)
  3860 (()) Tree.nil)) (.node (.node Tree.nil 78 ((.node (.node Tree.nil 392 (()) Tree.nil) 3850 (()) (.node Tree.nil 3855 (()) Tree.nil)))
  Tree.nil) 79 ((.node (.node Tree.nil 397 (()) Tree.nil) 3845 (()) Tree.nil)) Tree.nil))
/-- Comments at return statements (`ast.NewCommentMap`). -/
def commentTable : Tree (List (List GoString)) := (.node (.node (.node Tree.nil 7867 ([[s35]]) Tree.nil) 7892 ([[s35]]) (.node Tree.nil 7967
  ([[s36]]) Tree.nil)) 7987 ([[s37]]) (.node (.node Tree.nil 8026 ([[s38]]) Tree.nil) 8047 ([[s39]]) Tree.nil))
/-- Function declarations. -/
def declTable : Tree DeclInfo := (.node (.node (.node (.node Tree.nil 0 (⟨s0, true, none, some (CommentText.text [s40, s41, s42, s43, s44, s45]),
  7851, 774, []⟩) Tree.nil) 1 (⟨s8, true, none, some (CommentText.text [s40, s41, s46]), 7876, 775, []⟩) (.node Tree.nil 2 (⟨s11, true, none, some
  (CommentText.text [s40, s41, s42, s43]), 7901, 776, []⟩) Tree.nil)) 3 (⟨s14, true, none, some (CommentText.text [s40, s41, s42, s43, s44, s45]),
  7948, 777, []⟩) (.node (.node Tree.nil 4 (⟨s18, true, some 7954, some (CommentText.text [s40, s41, s42]), 7969, 779, []⟩) Tree.nil) 5 (⟨s19, true,
  some 7970, some (CommentText.text [s40, s41, s44]), 7989, 780, []⟩) (.node Tree.nil 6 (⟨s20, true, some 7990, none, 8006, 781, []⟩) Tree.nil))) 7
  (⟨s18, true, some 8013, some (CommentText.text [s40, s41, s43]), 8028, 783, []⟩) (.node (.node (.node Tree.nil 8 (⟨s19, true, some 8030, some
  (CommentText.text [s40, s41, s45]), 8049, 784, []⟩) Tree.nil) 9 (⟨s20, true, some 8051, none, 8067, 785, []⟩) (.node Tree.nil 10 (⟨s21, true, some
  8078, none, 8092, 787, [⟨8076, s22, (some 41)⟩]⟩) Tree.nil)) 11 (⟨s24, true, some 8095, none, 8109, 788, [⟨8093, s22, (some 42)⟩]⟩) (.node (.node
  Tree.nil 12 (⟨s25, true, some 8112, none, 8126, 789, [⟨8110, s22, (some 43)⟩]⟩) Tree.nil) 13 (⟨s27, true, some 8129, none, 8141, 790, [⟨8127, s22,
  (some 44)⟩]⟩) (.node Tree.nil 14 (⟨s28, true, some 8144, none, 8159, 791, [⟨8142, s22, (some 45)⟩]⟩) Tree.nil))))
/-- Named interfaces. -/
def interfaceTable : Tree Unit := (.node (.node (.node Tree.nil 19 (()) Tree.nil) 769 (()) (.node Tree.nil 770 (()) Tree.nil)) 771 (()) (.node
  (.node Tree.nil 772 (()) Tree.nil) 773 (()) Tree.nil))
/-- Methods of named types. -/
def methodNameTable : Tree (List GoString) := (.node (.node Tree.nil 778 ([s18, s19, s20]) Tree.nil) 782 ([s18, s19, s20]) (.node Tree.nil 786
  ([s21, s24, s25, s27, s28]) Tree.nil))
/-- Objects of interface methods. -/
def methodObjTable : Tree Nat := (.node (.node (.node (.node Tree.nil 7724 (792) Tree.nil) 7731 (793) Tree.nil) 7743 (794) (.node Tree.nil 7759
  (795) Tree.nil)) 7771 (796) (.node (.node Tree.nil 7783 (797) Tree.nil) 7795 (798) (.node Tree.nil 7802 (799) Tree.nil)))
/-- Syntax and types of the package, and the facts exported by the packages it imports. -/
def env : Env where
  funcs := [f0, f1, f2, f3, f4, f5, f6, f7, f8, f9, f10, f11, f12, f13, f14]
  objects := objects
  typeOf := fun n => (typeTable.find n).getD (.other 0)
  value := valueTable.find
  callee := calleeTable.find
  uses := usesTable.find
  selection := selectionTable.find
  pkgName := pkgNameTable.find
  funcObj := fun f => ((declTable.find f).map (·.obj)).getD 0
  implError := fun t => has implErrorTable t
  implCode := fun t => has implCodeTable t
  sigResults := fun n => ((sigTable.find n).map (·.2.2)).getD 0
  methodSet := fun t name => ((typeKey t).bind methodSetTable.find).bind fun l => lookup name l
  functions := fun _ => none
  methods := fun _ => []
  comments := fun n => ((commentTable.find n).getD []).map CommentText.text
  isPrint := fun r => 32 ≤ r && r < 127
  facts := noFacts
/-- The package. -/
def package : Package where
  env := env
  decls := ⟨fun f => ((declTable.find f).map (·.name)).getD [], fun f => ((declTable.find f).map (·.exported)).getD false,
    fun f => (declTable.find f).bind (·.recv), fun f => (declTable.find f).bind (·.doc), fun t => has implCauseTable t,
    fun f => ((declTable.find f).map (·.pos)).getD 0⟩
  types := ⟨fun f => (((declTable.find f).bind (·.recv)).bind typeTable.find).getD (.other 0),
    fun f => ((declTable.find f).map (·.recvNames)).getD [], fun o => (interfaceTable.find o).isSome,
    fun o => (methodNameTable.find o).getD []⟩
  funcs := [0, 1, 2, 3, 4, 5, 6, 7, 8, 9, 10, 11, 12, 13, 14]
  specs := [⟨7757, .named 769, none⟩, ⟨7769, .named 770, none⟩, ⟨7781, .named 771, none⟩, ⟨7793, .named 772, none⟩, ⟨7812, .named 773, none⟩, ⟨7953,
  .named 778, some []⟩, ⟨8011, .named 782, some []⟩, ⟨8075, .named 786, some [[s23]]⟩]
  ifaces := [⟨s52, 769, .interface 79, [.method ⟨7730, ⟨7724, s3, (some 1)⟩, ⟨[], (some [⟨[], 7726⟩]), 334⟩, some (CommentText.text [s47, s41, s40,
  s41, s48, s43])⟩, .method ⟨7742, ⟨7731, s7, (some 2)⟩, ⟨[⟨[⟨7732, s4, (some 3)⟩, ⟨7733, s6, (some 4)⟩], 7734⟩], (some [⟨[], 7738⟩]), 547⟩, some
  (CommentText.text [s40, s41, s49, s45])⟩, .method ⟨7753, ⟨7743, s5, (some 6)⟩, ⟨[⟨[⟨7744, s4, (some 7)⟩, ⟨7745, s6, (some 8)⟩], 7746⟩], (some
  [⟨[], 7749⟩]), 796⟩, some (CommentText.text [s50, s51])⟩]⟩, ⟨s55, 770, .interface 78, [.method ⟨7765, ⟨7759, s34, (some 10)⟩, ⟨[], (some [⟨[],
  7761⟩]), 1159⟩, some (CommentText.text [s53, s41, s40, s41, s48, s54])⟩]⟩, ⟨s57, 771, .interface 78, [.method ⟨7777, ⟨7771, s34, (some 12)⟩, ⟨[],
  (some [⟨[], 7773⟩]), 1560⟩, some (CommentText.text [s53, s41, s40, s41, s56])⟩]⟩, ⟨s58, 772, .interface 77, [.method ⟨7789, ⟨7783, s10, (some
  14)⟩, ⟨[], (some [⟨[], 7785⟩]), 1685⟩, none⟩]⟩, ⟨s59, 773, .interface 76, [.method ⟨7801, ⟨7795, s12, (some 16)⟩, ⟨[], (some [⟨[], 7797⟩]), 1887⟩,
  none⟩, .method ⟨7808, ⟨7802, s13, (some 17)⟩, ⟨[], (some [⟨[], 7804⟩]), 2094⟩, some (CommentText.text [s40, s41, s48, s43])⟩]⟩]
  methodObj := fun n => (methodObjTable.find n).getD 0
  conv := ⟨fun o => (underlyingTable.find o).getD (.other 0), fun n => ((sigTable.find n).map (·.1)).getD [],
    fun n => ((sigTable.find n).map (·.2.1)).getD false, fun n => (tupleTable.find n).getD [], fun n => (structTable.find n).getD [],
    fun t n => ((implTable.find n).map fun tr => has tr t).getD false⟩
  top := [
    .node (.other 7757 [.other 7756 [.ident ⟨7723, s52, (some 0)⟩, .other 7755 [.other 7754 [.other 7730 [.ident ⟨7724, s3, (some 1)⟩, .other 7729
  [.other 7725 [], .other 7728 [.other 7727 [.ident ⟨7726, s60, none⟩]]]], .other 7742 [.ident ⟨7731, s7, (some 2)⟩, .other 7741 [.other 7736
  [.other 7735 [.ident ⟨7732, s4, (some 3)⟩, .ident ⟨7733, s6, (some 4)⟩, .ident ⟨7734, s61, none⟩]], .other 7740 [.other 7739 [.other 7738 [.ident
  ⟨7737, s28, (some 5)⟩]]]]], .other 7753 [.ident ⟨7743, s5, (some 6)⟩, .other 7752 [.other 7748 [.other 7747 [.ident ⟨7744, s4, (some 7)⟩, .ident
  ⟨7745, s6, (some 8)⟩, .ident ⟨7746, s61, none⟩]], .other 7751 [.other 7750 [.ident ⟨7749, s61, none⟩]]]]]]]]),
    .node (.other 7769 [.other 7768 [.ident ⟨7758, s55, (some 9)⟩, .other 7767 [.other 7766 [.other 7765 [.ident ⟨7759, s34, (some 10)⟩, .other 7764
  [.other 7760 [], .other 7763 [.other 7762 [.ident ⟨7761, s60, none⟩]]]]]]]]),
    .node (.other 7781 [.other 7780 [.ident ⟨7770, s57, (some 11)⟩, .other 7779 [.other 7778 [.other 7777 [.ident ⟨7771, s34, (some 12)⟩, .other
  7776 [.other 7772 [], .other 7775 [.other 7774 [.ident ⟨7773, s60, none⟩]]]]]]]]),
    .node (.other 7793 [.other 7792 [.ident ⟨7782, s58, (some 13)⟩, .other 7791 [.other 7790 [.other 7789 [.ident ⟨7783, s10, (some 14)⟩, .other
  7788 [.other 7784 [], .other 7787 [.other 7786 [.ident ⟨7785, s60, none⟩]]]]]]]]),
    .node (.other 7812 [.other 7811 [.ident ⟨7794, s59, (some 15)⟩, .other 7810 [.other 7809 [.other 7801 [.ident ⟨7795, s12, (some 16)⟩, .other
  7800 [.other 7796 [], .other 7799 [.other 7798 [.ident ⟨7797, s60, none⟩]]]], .other 7808 [.ident ⟨7802, s13, (some 17)⟩, .other 7807 [.other 7803
  [], .other 7806 [.other 7805 [.ident ⟨7804, s60, none⟩]]]]]]]]),
    .func 0,
    .func 1,
    .func 2,
    .func 3,
    .node (.other 7953 [.other 7952 [.ident ⟨7949, s62, (some 30)⟩, .other 7951 [.other 7950 []]]]),
    .func 4,
    .func 5,
    .func 6,
    .node (.other 8011 [.other 8010 [.ident ⟨8007, s63, (some 35)⟩, .other 8009 [.other 8008 []]]]),
    .func 7,
    .func 8,
    .func 9,
    .node (.other 8075 [.other 8074 [.ident ⟨8068, s28, (some 5)⟩, .other 8073 [.other 8072 [.other 8071 [.ident ⟨8069, s23, (some 40)⟩, .ident
  ⟨8070, s61, none⟩]]]]]),
    .func 10,
    .func 11,
    .func 12,
    .func 13,
    .func 14]
/-- The run, in one order. -/
def result : Except Stop Outcome := runVerify package Check.source true
/-- What is expected.  The comments in the package say (with facts as `object: fact`):
```
inner1.go:3: Inner1Interface1: ErrorInterface: Inner1Method1 Inner1Method2
inner1.go:10: Inner1Method1: ErrorCodes: interface-1-error interface-2-error
inner1.go:16: Inner1Method2: ErrorCodes: interface-3-error interface-4-error
inner1.go:23: SimpleInterface: ErrorInterface: SimpleInterfaceMethod
inner1.go:30: SimpleInterfaceMethod: ErrorCodes: interface-1-error interface-2-error
inner1.go:33: SimpleInterfaceIncompatible: ErrorInterface: SimpleInterfaceMethod
inner1.go:39: SimpleInterfaceMethod: ErrorCodes: inner1-error
inner1.go:43: interface method "Inner1CodeNotDeclared" does not declare any error codes
inner1.go:46: Inner1Interface3: ErrorInterface: Inner1YesCodes
inner1.go:47: interface method "Inner1NoCodes" does not declare any error codes
inner1.go:53: Inner1YesCodes: ErrorCodes: interface-1-error interface-2-error
inner1.go:62: FunctionForInterface1: ErrorCodes: interface-1-error interface-2-error interface-3-error interface-4-error
inner1.go:73: FunctionForInterface2: ErrorCodes: some-error
inner1.go:75: called function does not declare error codes
inner1.go:84: FunctionForInterface3: ErrorCodes: interface-1-error interface-2-error
inner1.go:86: called function does not declare error codes
inner1.go:97: FunctionForAllInterfaces: ErrorCodes: interface-1-error interface-2-error interface-3-error interface-4-error
inner1.go:100: called function does not declare error codes
inner1.go:102: called function does not declare error codes
inner1.go:114: InterfaceMethod1: ErrorCodes: interface-1-error
inner1.go:121: InterfaceMethod2: ErrorCodes: interface-3-error
inner1.go:134: InterfaceMethod1: ErrorCodes: interface-2-error
inner1.go:141: InterfaceMethod2: ErrorCodes: interface-4-error
inner1.go:149: Error: ErrorType{Field:{Name:"TheCode", Position:0}, Codes:}
``` -/
def expected : Check.Expected where
  tags := []
  ifaces := [{ at_ := 7789, msg := Serum.IfaceMsg.undeclared b!"Inner1CodeNotDeclared" },
    { at_ := 7801, msg := Serum.IfaceMsg.undeclared b!"Inner1NoCodes" }]
  signatures := []
  claims := []
  bodies := [(1, { at_ := 7865, msg := Serum.Msg.calleeUndeclared }),
    (2, { at_ := 7890, msg := Serum.Msg.calleeUndeclared }),
    (3, { at_ := 7920, msg := Serum.Msg.calleeUndeclared }),
    (3, { at_ := 7927, msg := Serum.Msg.calleeUndeclared })]
  mismatches := []
  conversions := []
  codes := [(774, [b!"interface-1-error", b!"interface-2-error", b!"interface-3-error", b!"interface-4-error"]),
    (775, [b!"some-error"]),
    (776, [b!"interface-1-error", b!"interface-2-error"]),
    (777, [b!"interface-1-error", b!"interface-2-error", b!"interface-3-error", b!"interface-4-error"]),
    (779, [b!"interface-1-error"]),
    (780, [b!"interface-3-error"]),
    (783, [b!"interface-2-error"]),
    (784, [b!"interface-4-error"]),
    (792, [b!"interface-1-error", b!"interface-2-error"]),
    (793, [b!"interface-3-error", b!"interface-4-error"]),
    (795, [b!"interface-1-error", b!"interface-2-error"]),
    (796, [b!"inner1-error"]),
    (799, [b!"interface-1-error", b!"interface-2-error"])]
  ctors := []
  errorTypes := [(786, { codes := [], field := some { name := b!"TheCode", position := 0 } })]
  interfaces := [(769, [(b!"Inner1Method2", [b!"interface-3-error", b!"interface-4-error"]), (b!"Inner1Method1", [b!"interface-1-error", b!"interface-2-error"])]),
    (770, [(b!"SimpleInterfaceMethod", [b!"interface-1-error", b!"interface-2-error"])]),
    (771, [(b!"SimpleInterfaceMethod", [b!"inner1-error"])]),
    (773, [(b!"Inner1YesCodes", [b!"interface-1-error", b!"interface-2-error"])])]
  objects := 1385

/-- What functions call, and which literals they visit. -/
def graph : Check.Graph :=
  [([], []), ([], []), ([], []), ([], []), ([], []), ([], []), ([], []), ([], []), ([], []), ([], []), ([], []), ([], []), ([], []), ([], []),
  ([11], [])]

theorem checked : Check.run package true expected graph = true := by decide +kernel

theorem imports : Check.Tables package.env.facts := tables_noFacts

theorem exported : Check.Tables (Check.factsOf result) := Check.tables checked imports

/-- The facts known before a run: those exported by some run over the imported packages. -/
def Imported (F : Facts) : Prop :=
  F = noFacts

/-- The facts known after a run. -/
def Exports (F : Facts) : Prop := Check.Exports package Imported true F

theorem imports_same (F : Facts) (h : Imported F) : Props.Run.SameFacts package.env.facts F := by
  obtain rfl := h
  exact (.refl _)

theorem exports_same {F : Facts} (h : Exports F) : Props.Run.SameFacts (Check.factsOf result) F :=
  Check.exports_same checked imports imports_same h

/-- **C54**: every run over the package has the expected result. -/
theorem always : Check.Always package Imported true expected :=
  Check.always checked imports imports_same

/-- For the nodes with diagnostics: file, line, and type of node. -/
def nodes : Tree (GoString × Nat × GoString) :=
  (.node (.node (.node Tree.nil 7789 ((b!"inner1.go", 43, b!"Field")) Tree.nil) 7801 ((b!"inner1.go", 47, b!"Field")) (.node Tree.nil 7865 ((b!"inner1.go", 75, b!"SelectorExpr")) Tree.nil)) 7890 ((b!"inner1.go", 86, b!"SelectorExpr")) (.node (.node Tree.nil 7920 ((b!"inner1.go", 100, b!"SelectorExpr")) Tree.nil) 7927 ((b!"inner1.go", 102, b!"SelectorExpr")) Tree.nil))

/-- The names of the objects named in diagnostics other than by identifiers. -/
def objectNames : Tree GoString :=
  Tree.nil

def names : Names where
  object := fun o => (objectNames.find o).getD []
  kind := fun n => ((nodes.find n).map fun p => p.2.2).getD []

def place (n : NodeId) : GoString × Nat := ((nodes.find n).map fun p => (p.1, p.2.1)).getD ([], 0)

/-- What is printed: file, line and text. -/
def lines : List Check.Line := [(b!"inner1.go", 43, b!"interface method \"Inner1CodeNotDeclared\" does not declare any error codes"),
    (b!"inner1.go", 47, b!"interface method \"Inner1NoCodes\" does not declare any error codes"),
    (b!"inner1.go", 75, b!"called function does not declare error codes"),
    (b!"inner1.go", 86, b!"called function does not declare error codes"),
    (b!"inner1.go", 100, b!"called function does not declare error codes"),
    (b!"inner1.go", 102, b!"called function does not declare error codes")]

/-- **C54**: for every run over the package, these lines are printed. -/
theorem prints : Check.Prints package Imported true names place lines :=
  Check.prints always (by decide +kernel)

end Serum.Testdata.interfacesInner1
