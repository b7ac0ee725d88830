import Verif.Testdata.Support
import Verif.Testdata.FuncLiteralInner

/-!
# C54: the package analysis/testdata/src/func_literal

Generated by `scripts/conformance/testdata.py` from func_literal.go, func_literal2.go.  Numbers of syntax nodes, objects and types are arbitrary.  The tables hold
what `go/parser` and `go/types` say about the package.
-/

set_option maxRecDepth 100000
set_option linter.all false

namespace Serum.Testdata.funcLiteral
open Serum Serum.Testdata

def s0 : GoString := b!"AssignmentInLambda"
def s1 : GoString := b!"err"
def s2 : GoString := b!"_"
def s3 : GoString := b!"namedFunction"
def s4 : GoString := b!"LambdasReturningErrors"
def s5 : GoString := b!"getError"
def s6 : GoString := b!"true"
def s7 : GoString := b!"namedFunctionInOtherFile"
def s8 : GoString := b!"inner"
def s9 : GoString := b!"NamedFunction"
def s10 : GoString := b!"getError2"
def s11 : GoString := b!"getError3"
def s12 : GoString := b!"false"
def s13 : GoString := b!"nil"
def s14 : GoString := b!"LambdasReturningErrorsWithParen"
def s15 : GoString := b!"returningLambda"
def s16 : GoString := b!"OutOfBounds"
def s17 : GoString := b!"lambda"
def s18 : GoString := b!"funcLit"
def s19 : GoString := b!"TwinAssignLambda"
def s20 : GoString := b!"f1"
def s21 : GoString := b!"f2"
def s22 : GoString := b!"f3"
def s23 : GoString := b!"ReturnTwinLambda"
def s24 : GoString := b!"InvalidErrorFromLambdaParam"
def s25 : GoString := b!"e"
def s26 : GoString := b!"fmt"
def s27 : GoString := b!"Errorf"
def s28 : GoString := b!"InvalidErrorFromLambdaParam2"
def s29 : GoString := b!"Code"
def s30 : GoString := b!"TheCode"
def s31 : GoString := b!"Message"
def s32 : GoString := b!"Details"
def s33 : GoString := b!"Cause"
def s34 : GoString := b!"Error"
def s35 : GoString := b!"some-error"
def s36 : GoString := b!"no-error"
def s37 : GoString := b!"function-1-error"
def s38 : GoString := b!"lambda-4-error"
def s39 : GoString := b!"lambda-2-error"
def s40 : GoString := b!"lambda-5-error"
def s41 : GoString := b!"lambda-6-error"
def s42 : GoString := b!"lambda-7-error"
def s43 : GoString := b!"lambda-1-error"
def s44 : GoString := b!"lambda-3-error"
def s45 : GoString := b!"lambda-error"
def s46 : GoString := b!"other-error"
def s47 : GoString := b!"context-error"
def s48 : GoString := b!"f1-1-error"
def s49 : GoString := b!"f2-1-error"
def s50 : GoString := b!"f1-2-error"
def s51 : GoString := b!"f2-2-error"
def s52 : GoString := b!"error without code"
def s53 : GoString := b!"other-function-error"
def s54 : GoString := b!"// want \"invalid error source: definition of the unnamed function could not be found\""
def s55 : GoString := b!"// want \"returned error may not be a parameter, global variable or other variables declared outside of the function body\""
def s56 : GoString := b!"// want InvalidErrorFromLambdaParam:\"ErrorCodes\""
def s57 : GoString := b!"// Errors:"
def s58 : GoString := b!"//"
def s59 : GoString := b!"//    - some-error --"
def s60 : GoString := b!"//    - lambda-1-error --"
def s61 : GoString := b!"//    - lambda-2-error --"
def s62 : GoString := b!"//    - lambda-3-error --"
def s63 : GoString := b!"//    - lambda-4-error --"
def s64 : GoString := b!"//    - lambda-5-error --"
def s65 : GoString := b!"//    - lambda-6-error --"
def s66 : GoString := b!"//    - lambda-7-error --"
def s67 : GoString := b!"//    - function-1-error --"
def s68 : GoString := b!"//    - function-2-error --"
def s69 : GoString := b!"//    - other-function-error --"
def s70 : GoString := b!"// Errors: none"
def s71 : GoString := b!"//    - f1-1-error --"
def s72 : GoString := b!"//    - f1-2-error --"
def s73 : GoString := b!"//    - f2-1-error --"
def s74 : GoString := b!"//    - f2-2-error --"
def s75 : GoString := b!"string"
/-- func_literal.go:11: `func AssignmentInLambda` -/
def f0 : FuncDef := ⟨6777, some ⟨6734, s0, (some 0)⟩, ⟨[], (some [⟨[], 6737⟩]), 124⟩, some [.other 6746 [.other 6745 [.valueSpec 6744 [⟨6741, s1,
  (some 2)⟩] (some 6743) []]], .other 6758 [.call 6757 (.funcLit 6756 1 ⟨[], none, 0⟩ [.assign 6754 [.ident ⟨6749, s1, (some 2)⟩] [.unary 6753 true
  (.compositeLit 6752 [.basicLit 6751])]]) []], .other 6773 [.call 6772 (.funcLit 6771 2 ⟨[], none, 0⟩ [.assign 6766 [.ident ⟨6761, s1, (some 3)⟩]
  [.unary 6765 true (.compositeLit 6764 [.basicLit 6763])], .assign 6769 [.ident ⟨6767, s2, none⟩] [.ident ⟨6768, s1, (some 3)⟩]]) []], .ret 6775
  [.ident ⟨6774, s1, (some 2)⟩]], 131, 324⟩
/-- func_literal.go:13: a function literal -/
def f1 : FuncDef := ⟨6756, none, ⟨[], none, 0⟩, some [.assign 6754 [.ident ⟨6749, s1, (some 2)⟩] [.unary 6753 true (.compositeLit 6752 [.basicLit
  6751])]], 209, 242⟩
/-- func_literal.go:16: a function literal -/
def f2 : FuncDef := ⟨6771, none, ⟨[], none, 0⟩, some [.assign 6766 [.ident ⟨6761, s1, (some 3)⟩] [.unary 6765 true (.compositeLit 6764 [.basicLit
  6763])], .assign 6769 [.ident ⟨6767, s2, none⟩] [.ident ⟨6768, s1, (some 3)⟩]], 253, 308⟩
/-- func_literal.go:23: `func namedFunction` -/
def f3 : FuncDef := ⟨6790, some ⟨6778, s3, (some 4)⟩, ⟨[], (some [⟨[], 6780⟩]), 347⟩, some [.ret 6788 [.unary 6787 true (.compositeLit 6786
  [.basicLit 6785])]], 353, 391⟩
/-- func_literal.go:39: `func LambdasReturningErrors` -/
def f4 : FuncDef := ⟨6962, some ⟨6791, s4, (some 5)⟩, ⟨[], (some [⟨[], 6793⟩]), 707⟩, some [.other 6817 [.other 6816 [.valueSpec 6815 [⟨6797, s5,
  (some 6)⟩] (some 6802) [.funcLit 6814 5 ⟨[], (some [⟨[], 6804⟩]), 956⟩ [.ret 6812 [.unary 6811 true (.compositeLit 6810 [.basicLit 6809])]]]]],
  .other 6852 [.other 6851 [.caseClause 6833 [.ident ⟨6818, s6, none⟩] [.assign 6832 [.ident ⟨6819, s5, (some 6)⟩] [.funcLit 6831 6 ⟨[], (some [⟨[],
  6821⟩]), 1044⟩ [.ret 6829 [.unary 6828 true (.compositeLit 6827 [.basicLit 6826])]]]], .caseClause 6838 [.ident ⟨6834, s6, none⟩] [.assign 6837
  [.ident ⟨6835, s5, (some 6)⟩] [.ident ⟨6836, s3, (some 4)⟩]], .caseClause 6843 [.ident ⟨6839, s6, none⟩] [.assign 6842 [.ident ⟨6840, s5, (some
  6)⟩] [.ident ⟨6841, s7, none⟩]], .caseClause 6850 [.ident ⟨6844, s6, none⟩] [.assign 6849 [.ident ⟨6845, s5, (some 6)⟩] [.selector 6848 (.ident
  ⟨6846, s8, none⟩) ⟨6847, s9, none⟩]]]], .assign 6866 [.ident ⟨6853, s10, (some 7)⟩] [.funcLit 6865 7 ⟨[], (some [⟨[], 6855⟩]), 1250⟩ [.ret 6863
  [.unary 6862 true (.compositeLit 6861 [.basicLit 6860])]]], .assign 6882 [.ident ⟨6867, s2, (some 8)⟩, .ident ⟨6868, s11, (some 9)⟩] [.ident
  ⟨6869, s6, none⟩, .funcLit 6881 8 ⟨[], (some [⟨[], 6871⟩]), 1325⟩ [.ret 6879 [.unary 6878 true (.compositeLit 6877 [.basicLit 6876])]]], .other
  6904 [.ident ⟨6883, s12, none⟩, .other 6899 [.assign 6898 [.ident ⟨6885, s11, (some 9)⟩] [.funcLit 6897 9 ⟨[], (some [⟨[], 6887⟩]), 1403⟩ [.ret
  6895 [.unary 6894 true (.compositeLit 6893 [.basicLit 6892])]]]], .other 6903 [.assign 6902 [.ident ⟨6900, s11, (some 9)⟩] [.ident ⟨6901, s10,
  (some 7)⟩]]], .other 6958 [.other 6957 [.caseClause 6909 [.ident ⟨6905, s6, none⟩] [.ret 6908 [.call 6907 (.ident ⟨6906, s5, (some 6)⟩) []]],
  .caseClause 6914 [.ident ⟨6910, s6, none⟩] [.ret 6913 [.call 6912 (.ident ⟨6911, s11, (some 9)⟩) []]], .caseClause 6930 [.ident ⟨6915, s6, none⟩]
  [.ret 6929 [.call 6928 (.funcLit 6927 10 ⟨[], (some [⟨[], 6917⟩]), 1591⟩ [.ret 6925 [.unary 6924 true (.compositeLit 6923 [.basicLit 6922])]])
  []]], .caseClause 6956 [.ident ⟨6931, s6, none⟩] [.ret 6955 [.call 6954 (.funcLit 6953 11 ⟨[], (some [⟨[], 6933⟩]), 1668⟩ [.ret 6951 [.call 6950
  (.funcLit 6949 12 ⟨[], (some [⟨[], 6939⟩]), 1693⟩ [.ret 6947 [.unary 6946 true (.compositeLit 6945 [.basicLit 6944])]]) []]]) []]]]], .ret 6960
  [.ident ⟨6959, s13, none⟩]], 713, 1767⟩
/-- func_literal.go:40: a function literal -/
def f5 : FuncDef := ⟨6814, none, ⟨[], (some [⟨[], 6804⟩]), 956⟩, some [.ret 6812 [.unary 6811 true (.compositeLit 6810 [.basicLit 6809])]], 962, 1000⟩
/-- func_literal.go:46: a function literal -/
def f6 : FuncDef := ⟨6831, none, ⟨[], (some [⟨[], 6821⟩]), 1044⟩, some [.ret 6829 [.unary 6828 true (.compositeLit 6827 [.basicLit 6826])]], 1050,
  1090⟩
/-- func_literal.go:57: a function literal -/
def f7 : FuncDef := ⟨6865, none, ⟨[], (some [⟨[], 6855⟩]), 1250⟩, some [.ret 6863 [.unary 6862 true (.compositeLit 6861 [.basicLit 6860])]], 1256,
  1294⟩
/-- func_literal.go:60: a function literal -/
def f8 : FuncDef := ⟨6881, none, ⟨[], (some [⟨[], 6871⟩]), 1325⟩, some [.ret 6879 [.unary 6878 true (.compositeLit 6877 [.basicLit 6876])]], 1331,
  1369⟩
/-- func_literal.go:64: a function literal -/
def f9 : FuncDef := ⟨6897, none, ⟨[], (some [⟨[], 6887⟩]), 1403⟩, some [.ret 6895 [.unary 6894 true (.compositeLit 6893 [.basicLit 6892])]], 1409,
  1449⟩
/-- func_literal.go:77: a function literal -/
def f10 : FuncDef := ⟨6927, none, ⟨[], (some [⟨[], 6917⟩]), 1591⟩, some [.ret 6925 [.unary 6924 true (.compositeLit 6923 [.basicLit 6922])]], 1597,
  1637⟩
/-- func_literal.go:81: a function literal -/
def f11 : FuncDef := ⟨6953, none, ⟨[], (some [⟨[], 6933⟩]), 1668⟩, some [.ret 6951 [.call 6950 (.funcLit 6949 12 ⟨[], (some [⟨[], 6939⟩]), 1693⟩
  [.ret 6947 [.unary 6946 true (.compositeLit 6945 [.basicLit 6944])]]) []]], 1674, 1748⟩
/-- func_literal.go:82: a function literal -/
def f12 : FuncDef := ⟨6949, none, ⟨[], (some [⟨[], 6939⟩]), 1693⟩, some [.ret 6947 [.unary 6946 true (.compositeLit 6945 [.basicLit 6944])]], 1700,
  1742⟩
/-- func_literal.go:102: `func LambdasReturningErrorsWithParen` -/
def f13 : FuncDef := ⟨7151, some ⟨6963, s14, (some 10)⟩, ⟨[], (some [⟨[], 6965⟩]), 2092⟩, some [.other 6990 [.other 6989 [.valueSpec 6988 [⟨6969,
  s5, (some 11)⟩] (some 6974) [.paren 6987 (.funcLit 6986 14 ⟨[], (some [⟨[], 6976⟩]), 2351⟩ [.ret 6984 [.unary 6983 true (.compositeLit 6982
  [.basicLit 6981])]])]]], .other 7031 [.other 7030 [.caseClause 7009 [.ident ⟨6991, s6, none⟩] [.assign 7008 [.ident ⟨6992, s5, (some 11)⟩]
  [.funcLit 7007 15 ⟨[], (some [⟨[], 6994⟩]), 2440⟩ [.other 7005 [.other 7004 [.ret 7003 [.paren 7002 (.unary 7001 true (.compositeLit 7000
  [.basicLit 6999]))]]]]]], .caseClause 7015 [.ident ⟨7010, s6, none⟩] [.assign 7014 [.ident ⟨7011, s5, (some 11)⟩] [.paren 7013 (.ident ⟨7012, s3,
  (some 4)⟩)]], .caseClause 7021 [.ident ⟨7016, s6, none⟩] [.assign 7020 [.ident ⟨7017, s5, (some 11)⟩] [.paren 7019 (.ident ⟨7018, s7, none⟩)]],
  .caseClause 7029 [.ident ⟨7022, s6, none⟩] [.assign 7028 [.ident ⟨7023, s5, (some 11)⟩] [.paren 7027 (.selector 7026 (.ident ⟨7024, s8, none⟩)
  ⟨7025, s9, none⟩)]]]], .assign 7046 [.ident ⟨7032, s10, (some 12)⟩] [.funcLit 7045 16 ⟨[], (some [⟨[], 7034⟩]), 2669⟩ [.ret 7043 [.unary 7042 true
  (.paren 7041 (.compositeLit 7040 [.basicLit 7039]))]]], .assign 7064 [.ident ⟨7047, s2, (some 13)⟩, .ident ⟨7048, s11, (some 14)⟩] [.ident ⟨7049,
  s6, none⟩, .paren 7063 (.funcLit 7062 17 ⟨[], (some [⟨[], 7051⟩]), 2747⟩ [.ret 7060 [.unary 7059 true (.compositeLit 7058 [.paren 7057 (.basicLit
  7056)])]])], .other 7089 [.ident ⟨7065, s12, none⟩, .other 7083 [.assign 7082 [.ident ⟨7067, s11, (some 14)⟩] [.funcLit 7081 18 ⟨[], (some [⟨[],
  7069⟩]), 2828⟩ [.ret 7079 [.paren 7078 (.unary 7077 true (.paren 7076 (.compositeLit 7075 [.basicLit 7074])))]]]], .other 7088 [.assign 7087
  [.ident ⟨7084, s11, (some 14)⟩] [.paren 7086 (.ident ⟨7085, s10, (some 12)⟩)]]], .other 7147 [.other 7146 [.caseClause 7095 [.ident ⟨7090, s6,
  none⟩] [.ret 7094 [.call 7093 (.paren 7092 (.ident ⟨7091, s5, (some 11)⟩)) []]], .caseClause 7101 [.ident ⟨7096, s6, none⟩] [.ret 7100 [.call 7099
  (.paren 7098 (.ident ⟨7097, s11, (some 14)⟩)) []]], .caseClause 7117 [.ident ⟨7102, s6, none⟩] [.ret 7116 [.call 7115 (.funcLit 7114 19 ⟨[], (some
  [⟨[], 7104⟩]), 3026⟩ [.ret 7112 [.unary 7111 true (.compositeLit 7110 [.basicLit 7109])]]) []]], .caseClause 7145 [.ident ⟨7118, s6, none⟩] [.ret
  7144 [.call 7143 (.funcLit 7142 20 ⟨[], (some [⟨[], 7120⟩]), 3103⟩ [.ret 7140 [.paren 7139 (.call 7138 (.paren 7137 (.funcLit 7136 21 ⟨[], (some
  [⟨[], 7126⟩]), 3130⟩ [.ret 7134 [.unary 7133 true (.compositeLit 7132 [.basicLit 7131])]])) [])]]) []]]]], .ret 7149 [.ident ⟨7148, s13, none⟩]],
  2098, 3206⟩
/-- func_literal.go:103: a function literal -/
def f14 : FuncDef := ⟨6986, none, ⟨[], (some [⟨[], 6976⟩]), 2351⟩, some [.ret 6984 [.unary 6983 true (.compositeLit 6982 [.basicLit 6981])]], 2357,
  2395⟩
/-- func_literal.go:109: a function literal -/
def f15 : FuncDef := ⟨7007, none, ⟨[], (some [⟨[], 6994⟩]), 2440⟩, some [.other 7005 [.other 7004 [.ret 7003 [.paren 7002 (.unary 7001 true
  (.compositeLit 7000 [.basicLit 6999]))]]]], 2446, 2503⟩
/-- func_literal.go:122: a function literal -/
def f16 : FuncDef := ⟨7045, none, ⟨[], (some [⟨[], 7034⟩]), 2669⟩, some [.ret 7043 [.unary 7042 true (.paren 7041 (.compositeLit 7040 [.basicLit
  7039]))]], 2675, 2715⟩
/-- func_literal.go:125: a function literal -/
def f17 : FuncDef := ⟨7062, none, ⟨[], (some [⟨[], 7051⟩]), 2747⟩, some [.ret 7060 [.unary 7059 true (.compositeLit 7058 [.paren 7057 (.basicLit
  7056)])]], 2753, 2793⟩
/-- func_literal.go:129: a function literal -/
def f18 : FuncDef := ⟨7081, none, ⟨[], (some [⟨[], 7069⟩]), 2828⟩, some [.ret 7079 [.paren 7078 (.unary 7077 true (.paren 7076 (.compositeLit 7075
  [.basicLit 7074])))]], 2834, 2878⟩
/-- func_literal.go:142: a function literal -/
def f19 : FuncDef := ⟨7114, none, ⟨[], (some [⟨[], 7104⟩]), 3026⟩, some [.ret 7112 [.unary 7111 true (.compositeLit 7110 [.basicLit 7109])]], 3032,
  3072⟩
/-- func_literal.go:146: a function literal -/
def f20 : FuncDef := ⟨7142, none, ⟨[], (some [⟨[], 7120⟩]), 3103⟩, some [.ret 7140 [.paren 7139 (.call 7138 (.paren 7137 (.funcLit 7136 21 ⟨[],
  (some [⟨[], 7126⟩]), 3130⟩ [.ret 7134 [.unary 7133 true (.compositeLit 7132 [.basicLit 7131])]])) [])]], 3109, 3187⟩
/-- func_literal.go:147: a function literal -/
def f21 : FuncDef := ⟨7136, none, ⟨[], (some [⟨[], 7126⟩]), 3130⟩, some [.ret 7134 [.unary 7133 true (.compositeLit 7132 [.basicLit 7131])]], 3137,
  3179⟩
/-- func_literal.go:155: `func returningLambda` -/
def f22 : FuncDef := ⟨7178, some ⟨7152, s15, (some 15)⟩, ⟨[], (some [⟨[], 7159⟩]), 3231⟩, some [.ret 7176 [.funcLit 7175 23 ⟨[], (some [⟨[],
  7165⟩]), 3262⟩ [.ret 7173 [.unary 7172 true (.compositeLit 7171 [.basicLit 7170])]]]], 3245, 3307⟩
/-- func_literal.go:156: a function literal -/
def f23 : FuncDef := ⟨7175, none, ⟨[], (some [⟨[], 7165⟩]), 3262⟩, some [.ret 7173 [.unary 7172 true (.compositeLit 7171 [.basicLit 7170])]], 3269,
  3305⟩
/-- func_literal.go:162: `func OutOfBounds` -/
def f24 : FuncDef := ⟨7290, some ⟨7179, s16, (some 16)⟩, ⟨[], (some [⟨[], 7182⟩]), 3344⟩, some [.other 7286 [.other 7285 [.caseClause 7201 [.ident
  ⟨7186, s6, none⟩] [.ret 7200 [.unary 7199 true (.compositeLit 7198 [.call 7197 (.funcLit 7196 25 ⟨[], (some [⟨[], 7189⟩]), 3432⟩ [.ret 7194
  [.basicLit 7193]]) []])]], .caseClause 7232 [.ident ⟨7202, s6, none⟩] [.ret 7231 [.call 7230 (.call 7229 (.funcLit 7228 26 ⟨[], (some [⟨[],
  7209⟩]), 3565⟩ [.ret 7226 [.funcLit 7225 27 ⟨[], (some [⟨[], 7215⟩]), 3684⟩ [.ret 7223 [.unary 7222 true (.compositeLit 7221 [.basicLit
  7220])]]]]) []) []]], .caseClause 7238 [.ident ⟨7233, s6, none⟩] [.ret 7237 [.call 7236 (.call 7235 (.ident ⟨7234, s15, (some 15)⟩) []) []]],
  .caseClause 7255 [.ident ⟨7239, s6, none⟩] [.other 7251 [.other 7250 [.valueSpec 7249 [⟨7240, s17, (some 17)⟩] (some 7246) [.call 7248 (.ident
  ⟨7247, s15, (some 15)⟩) []]]], .ret 7254 [.call 7253 (.ident ⟨7252, s17, (some 17)⟩) []]], .caseClause 7264 [.ident ⟨7256, s6, none⟩] [.assign
  7260 [.ident ⟨7257, s18, (some 18)⟩] [.call 7259 (.ident ⟨7258, s15, (some 15)⟩) []], .ret 7263 [.call 7262 (.ident ⟨7261, s18, (some 18)⟩) []]],
  .caseClause 7284 [.ident ⟨7265, s6, none⟩] [.assign 7271 [.ident ⟨7266, s1, (some 19)⟩] [.unary 7270 true (.compositeLit 7269 [.basicLit 7268])],
  .ret 7283 [.call 7282 (.funcLit 7281 28 ⟨[], (some [⟨[], 7274⟩]), 4244⟩ [.ret 7279 [.ident ⟨7278, s1, (some 19)⟩]]) []]]]], .ret 7288 [.ident
  ⟨7287, s13, none⟩]], 3351, 4411⟩
/-- func_literal.go:165: a function literal -/
def f25 : FuncDef := ⟨7196, none, ⟨[], (some [⟨[], 7189⟩]), 3432⟩, some [.ret 7194 [.basicLit 7193]], 3439, 3463⟩
/-- func_literal.go:167: a function literal -/
def f26 : FuncDef := ⟨7228, none, ⟨[], (some [⟨[], 7209⟩]), 3565⟩, some [.ret 7226 [.funcLit 7225 27 ⟨[], (some [⟨[], 7215⟩]), 3684⟩ [.ret 7223
  [.unary 7222 true (.compositeLit 7221 [.basicLit 7220])]]]], 3579, 3735⟩
/-- func_literal.go:168: a function literal -/
def f27 : FuncDef := ⟨7225, none, ⟨[], (some [⟨[], 7215⟩]), 3684⟩, some [.ret 7223 [.unary 7222 true (.compositeLit 7221 [.basicLit 7220])]], 3691,
  3731⟩
/-- func_literal.go:182: a function literal -/
def f28 : FuncDef := ⟨7281, none, ⟨[], (some [⟨[], 7274⟩]), 4244⟩, some [.ret 7279 [.ident ⟨7278, s1, (some 19)⟩]], 4251, 4392⟩
/-- func_literal.go:195: `func TwinAssignLambda` -/
def f29 : FuncDef := ⟨7386, some ⟨7291, s19, (some 20)⟩, ⟨[], (some [⟨[], 7293⟩]), 4539⟩, some [.other 7325 [.other 7324 [.valueSpec 7323 [⟨7297,
  s20, (some 21)⟩, ⟨7298, s21, (some 22)⟩] none [.funcLit 7310 30 ⟨[], (some [⟨[], 7300⟩]), 4651⟩ [.ret 7308 [.unary 7307 true (.compositeLit 7306
  [.basicLit 7305])]], .funcLit 7322 31 ⟨[], (some [⟨[], 7312⟩]), 4697⟩ [.ret 7320 [.unary 7319 true (.compositeLit 7318 [.basicLit 7317])]]]]],
  .assign 7352 [.ident ⟨7326, s20, (some 21)⟩, .ident ⟨7327, s21, (some 22)⟩] [.funcLit 7339 32 ⟨[], (some [⟨[], 7329⟩]), 4752⟩ [.ret 7337 [.unary
  7336 true (.compositeLit 7335 [.basicLit 7334])]], .funcLit 7351 33 ⟨[], (some [⟨[], 7341⟩]), 4798⟩ [.ret 7349 [.unary 7348 true (.compositeLit
  7347 [.basicLit 7346])]]], .other 7359 [.other 7358 [.valueSpec 7357 [⟨7353, s22, (some 23)⟩, ⟨7354, s2, (some 24)⟩] none [.call 7356 (.ident
  ⟨7355, s23, (some 25)⟩) []]]], .assign 7364 [.ident ⟨7360, s2, none⟩, .ident ⟨7361, s22, (some 23)⟩] [.call 7363 (.ident ⟨7362, s23, (some 25)⟩)
  []], .other 7384 [.other 7383 [.caseClause 7369 [.ident ⟨7365, s6, none⟩] [.ret 7368 [.call 7367 (.ident ⟨7366, s20, (some 21)⟩) []]], .caseClause
  7374 [.ident ⟨7370, s6, none⟩] [.ret 7373 [.call 7372 (.ident ⟨7371, s21, (some 22)⟩) []]], .caseClause 7379 [.ident ⟨7375, s6, none⟩] [.ret 7378
  [.call 7377 (.ident ⟨7376, s22, (some 23)⟩) []]], .caseClause 7382 [] [.ret 7381 [.ident ⟨7380, s13, none⟩]]]]], 4545, 5193⟩
/-- func_literal.go:196: a function literal -/
def f30 : FuncDef := ⟨7310, none, ⟨[], (some [⟨[], 7300⟩]), 4651⟩, some [.ret 7308 [.unary 7307 true (.compositeLit 7306 [.basicLit 7305])]], 4657,
  4688⟩
/-- func_literal.go:196: a function literal -/
def f31 : FuncDef := ⟨7322, none, ⟨[], (some [⟨[], 7312⟩]), 4697⟩, some [.ret 7320 [.unary 7319 true (.compositeLit 7318 [.basicLit 7317])]], 4703,
  4734⟩
/-- func_literal.go:197: a function literal -/
def f32 : FuncDef := ⟨7339, none, ⟨[], (some [⟨[], 7329⟩]), 4752⟩, some [.ret 7337 [.unary 7336 true (.compositeLit 7335 [.basicLit 7334])]], 4758,
  4789⟩
/-- func_literal.go:197: a function literal -/
def f33 : FuncDef := ⟨7351, none, ⟨[], (some [⟨[], 7341⟩]), 4798⟩, some [.ret 7349 [.unary 7348 true (.compositeLit 7347 [.basicLit 7346])]], 4804,
  4835⟩
/-- func_literal.go:212: `func ReturnTwinLambda` -/
def f34 : FuncDef := ⟨7407, some ⟨7387, s23, (some 25)⟩, ⟨[], (some [⟨[], 7393⟩, ⟨[], 7398⟩]), 5219⟩, some [.ret 7405 [.ident ⟨7403, s13, none⟩,
  .ident ⟨7404, s13, none⟩]], 5248, 5268⟩
/-- func_literal.go:217: `func InvalidErrorFromLambdaParam` -/
def f35 : FuncDef := ⟨7434, some ⟨7408, s24, (some 26)⟩, ⟨[], (some [⟨[], 7410⟩]), 5321⟩, some [.ret 7432 [.call 7431 (.funcLit 7425 36 ⟨[⟨[⟨7414,
  s25, (some 27)⟩], 7415⟩], (some [⟨[], 7418⟩]), 5400⟩ [.ret 7423 [.ident ⟨7422, s25, (some 27)⟩]]) [.call 7430 (.selector 7428 (.ident ⟨7426, s26,
  none⟩) ⟨7427, s27, none⟩) [.basicLit 7429]]]], 5327, 5579⟩
/-- func_literal.go:218: a function literal -/
def f36 : FuncDef := ⟨7425, none, ⟨[⟨[⟨7414, s25, (some 27)⟩], 7415⟩], (some [⟨[], 7418⟩]), 5400⟩, some [.ret 7423 [.ident ⟨7422, s25, (some 27)⟩]],
  5406, 5543⟩
/-- func_literal.go:224: `func InvalidErrorFromLambdaParam2` -/
def f37 : FuncDef := ⟨7466, some ⟨7435, s28, (some 28)⟩, ⟨[], (some [⟨[], 7437⟩]), 5633⟩, some [.other 7445 [.other 7444 [.valueSpec 7443 [⟨7441,
  s1, (some 29)⟩] (some 7442) []]], .other 7462 [.call 7461 (.funcLit 7455 38 ⟨[⟨[⟨7446, s25, (some 30)⟩], 7447⟩], none, 0⟩ [.assign 7453 [.ident
  ⟨7451, s1, (some 29)⟩] [.ident ⟨7452, s25, (some 30)⟩]]) [.call 7460 (.selector 7458 (.ident ⟨7456, s26, none⟩) ⟨7457, s27, none⟩) [.basicLit
  7459]]], .ret 7464 [.ident ⟨7463, s1, (some 29)⟩]], 5639, 5860⟩
/-- func_literal.go:226: a function literal -/
def f38 : FuncDef := ⟨7455, none, ⟨[⟨[⟨7446, s25, (some 30)⟩], 7447⟩], none, 0⟩, some [.assign 7453 [.ident ⟨7451, s1, (some 29)⟩] [.ident ⟨7452,
  s25, (some 30)⟩]], 5721, 5812⟩
/-- func_literal.go:236: `func Code` -/
def f39 : FuncDef := ⟨7491, some ⟨7480, s29, none⟩, ⟨[], (some [⟨[], 7482⟩]), 5994⟩, some [.ret 7489 [.selector 7488 (.ident ⟨7486, s25, (some 32)⟩)
  ⟨7487, s30, none⟩]], 6015, 6035⟩
/-- func_literal.go:237: `func Message` -/
def f40 : FuncDef := ⟨7508, some ⟨7497, s31, none⟩, ⟨[], (some [⟨[], 7499⟩]), 6062⟩, some [.ret 7506 [.selector 7505 (.ident ⟨7503, s25, (some 33)⟩)
  ⟨7504, s30, none⟩]], 6080, 6100⟩
/-- func_literal.go:238: `func Details` -/
def f41 : FuncDef := ⟨7525, some ⟨7514, s32, none⟩, ⟨[], (some [⟨[], 7518⟩]), 6127⟩, some [.ret 7523 [.ident ⟨7522, s13, none⟩]], 6145, 6159⟩
/-- func_literal.go:239: `func Cause` -/
def f42 : FuncDef := ⟨7540, some ⟨7531, s33, none⟩, ⟨[], (some [⟨[], 7533⟩]), 6184⟩, some [.ret 7538 [.ident ⟨7537, s13, none⟩]], 6204, 6218⟩
/-- func_literal.go:240: `func Error` -/
def f43 : FuncDef := ⟨7558, some ⟨7546, s34, none⟩, ⟨[], (some [⟨[], 7548⟩]), 6243⟩, some [.ret 7556 [.call 7555 (.selector 7554 (.ident ⟨7552, s25,
  (some 36)⟩) ⟨7553, s31, none⟩) []]], 6263, 6285⟩
/-- func_literal2.go:3: `func namedFunctionInOtherFile` -/
def f44 : FuncDef := ⟨7573, some ⟨7561, s7, (some 37)⟩, ⟨[], (some [⟨[], 7563⟩]), 6349⟩, some [.ret 7571 [.unary 7570 true (.compositeLit 7569
  [.basicLit 7568])]], 6355, 6397⟩
/-- The objects of go/ast, in the order of their numbers. -/
def objects : List ObjInfo := [
  ⟨.fun_, 103, (.funcDecl 0)⟩,
  ⟨.typ, 5867, .typeSpec⟩,
  ⟨.var, 190, (.valueSpec [⟨6741, s1, (some 2)⟩] [])⟩,
  ⟨.var, 257, .other⟩,
  ⟨.fun_, 331, (.funcDecl 3)⟩,
  ⟨.fun_, 682, (.funcDecl 4)⟩,
  ⟨.var, 925, (.valueSpec [⟨6797, s5, (some 6)⟩] [.funcLit 6814 5 ⟨[], (some [⟨[], 6804⟩]), 956⟩ [.ret 6812 [.unary 6811 true (.compositeLit 6810
  [.basicLit 6809])]]])⟩,
  ⟨.var, 1230, .other⟩,
  ⟨.var, 1296, .other⟩,
  ⟨.var, 1299, .other⟩,
  ⟨.fun_, 2058, (.funcDecl 13)⟩,
  ⟨.var, 2319, (.valueSpec [⟨6969, s5, (some 11)⟩] [.paren 6987 (.funcLit 6986 14 ⟨[], (some [⟨[], 6976⟩]), 2351⟩ [.ret 6984 [.unary 6983 true
  (.compositeLit 6982 [.basicLit 6981])]])])⟩,
  ⟨.var, 2649, .other⟩,
  ⟨.var, 2717, .other⟩,
  ⟨.var, 2720, .other⟩,
  ⟨.fun_, 3213, (.funcDecl 22)⟩,
  ⟨.fun_, 3330, (.funcDecl 24)⟩,
  ⟨.var, 3885, (.valueSpec [⟨7240, s17, (some 17)⟩] [.call 7248 (.ident ⟨7247, s15, (some 15)⟩) []])⟩,
  ⟨.var, 4046, .other⟩,
  ⟨.var, 4197, .other⟩,
  ⟨.fun_, 4520, (.funcDecl 29)⟩,
  ⟨.var, 4635, (.valueSpec [⟨7297, s20, (some 21)⟩, ⟨7298, s21, (some 22)⟩] [.funcLit 7310 30 ⟨[], (some [⟨[], 7300⟩]), 4651⟩ [.ret 7308 [.unary
  7307 true (.compositeLit 7306 [.basicLit 7305])]], .funcLit 7322 31 ⟨[], (some [⟨[], 7312⟩]), 4697⟩ [.ret 7320 [.unary 7319 true (.compositeLit
  7318 [.basicLit 7317])]]])⟩,
  ⟨.var, 4639, (.valueSpec [⟨7297, s20, (some 21)⟩, ⟨7298, s21, (some 22)⟩] [.funcLit 7310 30 ⟨[], (some [⟨[], 7300⟩]), 4651⟩ [.ret 7308 [.unary
  7307 true (.compositeLit 7306 [.basicLit 7305])]], .funcLit 7322 31 ⟨[], (some [⟨[], 7312⟩]), 4697⟩ [.ret 7320 [.unary 7319 true (.compositeLit
  7318 [.basicLit 7317])]]])⟩,
  ⟨.var, 4841, (.valueSpec [⟨7353, s22, (some 23)⟩, ⟨7354, s2, (some 24)⟩] [.call 7356 (.ident ⟨7355, s23, (some 25)⟩) []])⟩,
  ⟨.var, 4845, (.valueSpec [⟨7353, s22, (some 23)⟩, ⟨7354, s2, (some 24)⟩] [.call 7356 (.ident ⟨7355, s23, (some 25)⟩) []])⟩,
  ⟨.fun_, 5200, (.funcDecl 34)⟩,
  ⟨.fun_, 5291, (.funcDecl 35)⟩,
  ⟨.var, 5391, .other⟩,
  ⟨.fun_, 5602, (.funcDecl 37)⟩,
  ⟨.var, 5696, (.valueSpec [⟨7441, s1, (some 29)⟩] [])⟩,
  ⟨.var, 5712, .other⟩,
  ⟨.var, 5953, .other⟩,
  ⟨.var, 5977, .other⟩,
  ⟨.var, 6042, .other⟩,
  ⟨.var, 6107, .other⟩,
  ⟨.var, 6166, .other⟩,
  ⟨.var, 6225, .other⟩,
  ⟨.fun_, 6322, (.funcDecl 44)⟩]
/-- Types of expressions (`Info.Types`, `Info.Defs`, `Info.Uses`). -/
def typeTable : Tree GoType := (.node (.node (.node (.node (.node (.node (.node (.node (.node Tree.nil 6734 (.signature 71) Tree.nil) 6736 (.named
  736) (.node Tree.nil 6737 (.pointer (.named 736)) Tree.nil)) 6740 (.signature 71) (.node (.node Tree.nil 6741 (.pointer (.named 736)) Tree.nil)
  6742 (.named 736) (.node Tree.nil 6743 (.pointer (.named 736)) Tree.nil))) 6748 (.signature 15) (.node (.node (.node Tree.nil 6749 (.pointer
  (.named 736)) Tree.nil) 6750 (.named 736) (.node Tree.nil 6751 (.string) Tree.nil)) 6752 (.named 736) (.node (.node Tree.nil 6753 (.pointer
  (.named 736)) Tree.nil) 6756 (.signature 15) Tree.nil))) 6757 (.tuple 56) (.node (.node (.node (.node Tree.nil 6760 (.signature 15) Tree.nil) 6761
  (.pointer (.named 736)) (.node Tree.nil 6762 (.named 736) Tree.nil)) 6763 (.string) (.node (.node Tree.nil 6764 (.named 736) Tree.nil) 6765
  (.pointer (.named 736)) Tree.nil)) 6768 (.pointer (.named 736)) (.node (.node (.node Tree.nil 6771 (.signature 15) Tree.nil) 6772 (.tuple 56)
  (.node Tree.nil 6774 (.pointer (.named 736)) Tree.nil)) 6778 (.signature 6) (.node (.node Tree.nil 6780 (.named 19) Tree.nil) 6783 (.signature 6)
  Tree.nil)))) 6784 (.named 736) (.node (.node (.node (.node (.node Tree.nil 6785 (.string) Tree.nil) 6786 (.named 736) (.node Tree.nil 6787
  (.pointer (.named 736)) Tree.nil)) 6791 (.signature 6) (.node (.node Tree.nil 6793 (.named 19) Tree.nil) 6796 (.signature 6) Tree.nil)) 6797
  (.signature 6) (.node (.node (.node Tree.nil 6799 (.named 19) Tree.nil) 6802 (.signature 6) (.node Tree.nil 6804 (.named 19) Tree.nil)) 6807
  (.signature 6) (.node (.node Tree.nil 6808 (.named 736) Tree.nil) 6809 (.string) Tree.nil))) 6810 (.named 736) (.node (.node (.node (.node
  Tree.nil 6811 (.pointer (.named 736)) Tree.nil) 6814 (.signature 6) (.node Tree.nil 6818 (.other 10) Tree.nil)) 6819 (.signature 6) (.node (.node
  Tree.nil 6821 (.named 19) Tree.nil) 6824 (.signature 6) Tree.nil)) 6825 (.named 736) (.node (.node (.node Tree.nil 6826 (.string) Tree.nil) 6827
  (.named 736) (.node Tree.nil 6828 (.pointer (.named 736)) Tree.nil)) 6831 (.signature 6) (.node (.node Tree.nil 6834 (.other 10) Tree.nil) 6835
  (.signature 6) Tree.nil))))) 6836 (.signature 6) (.node (.node (.node (.node (.node (.node Tree.nil 6839 (.other 10) Tree.nil) 6840 (.signature 6)
  (.node Tree.nil 6841 (.signature 6) Tree.nil)) 6844 (.other 10) (.node (.node Tree.nil 6845 (.signature 6) Tree.nil) 6847 (.signature 6)
  Tree.nil)) 6848 (.signature 6) (.node (.node (.node Tree.nil 6853 (.signature 6) Tree.nil) 6855 (.named 19) (.node Tree.nil 6858 (.signature 6)
  Tree.nil)) 6859 (.named 736) (.node (.node Tree.nil 6860 (.string) Tree.nil) 6861 (.named 736) Tree.nil))) 6862 (.pointer (.named 736)) (.node
  (.node (.node (.node Tree.nil 6865 (.signature 6) Tree.nil) 6867 (.other 10) (.node Tree.nil 6868 (.signature 6) Tree.nil)) 6869 (.other 10)
  (.node (.node Tree.nil 6871 (.named 19) Tree.nil) 6874 (.signature 6) Tree.nil)) 6875 (.named 736) (.node (.node (.node Tree.nil 6876 (.string)
  Tree.nil) 6877 (.named 736) (.node Tree.nil 6878 (.pointer (.named 736)) Tree.nil)) 6881 (.signature 6) (.node (.node Tree.nil 6883 (.other 10)
  Tree.nil) 6885 (.signature 6) Tree.nil)))) 6887 (.named 19) (.node (.node (.node (.node (.node Tree.nil 6890 (.signature 6) Tree.nil) 6891 (.named
  736) (.node Tree.nil 6892 (.string) Tree.nil)) 6893 (.named 736) (.node (.node Tree.nil 6894 (.pointer (.named 736)) Tree.nil) 6897 (.signature 6)
  Tree.nil)) 6900 (.signature 6) (.node (.node (.node Tree.nil 6901 (.signature 6) Tree.nil) 6905 (.other 10) (.node Tree.nil 6906 (.signature 6)
  Tree.nil)) 6907 (.named 19) (.node (.node Tree.nil 6910 (.other 10) Tree.nil) 6911 (.signature 6) Tree.nil))) 6912 (.named 19) (.node (.node
  (.node (.node Tree.nil 6915 (.other 10) Tree.nil) 6917 (.named 19) (.node Tree.nil 6920 (.signature 6) Tree.nil)) 6921 (.named 736) (.node (.node
  Tree.nil 6922 (.string) Tree.nil) 6923 (.named 736) Tree.nil)) 6924 (.pointer (.named 736)) (.node (.node (.node Tree.nil 6927 (.signature 6)
  Tree.nil) 6928 (.named 19) (.node Tree.nil 6931 (.other 10) Tree.nil)) 6933 (.named 19) (.node (.node Tree.nil 6936 (.signature 6) Tree.nil) 6938
  (.named 736) Tree.nil)))))) 6939 (.pointer (.named 736)) (.node (.node (.node (.node (.node (.node (.node Tree.nil 6942 (.signature 71) Tree.nil)
  6943 (.named 736) (.node Tree.nil 6944 (.string) Tree.nil)) 6945 (.named 736) (.node (.node Tree.nil 6946 (.pointer (.named 736)) Tree.nil) 6949
  (.signature 71) Tree.nil)) 6950 (.pointer (.named 736)) (.node (.node (.node Tree.nil 6953 (.signature 6) Tree.nil) 6954 (.named 19) (.node
  Tree.nil 6959 (.untypedNil) Tree.nil)) 6963 (.signature 6) (.node (.node Tree.nil 6965 (.named 19) Tree.nil) 6968 (.signature 6) Tree.nil))) 6969
  (.signature 6) (.node (.node (.node (.node Tree.nil 6971 (.named 19) Tree.nil) 6974 (.signature 6) (.node Tree.nil 6976 (.named 19) Tree.nil))
  6979 (.signature 6) (.node (.node Tree.nil 6980 (.named 736) Tree.nil) 6981 (.string) Tree.nil)) 6982 (.named 736) (.node (.node (.node Tree.nil
  6983 (.pointer (.named 736)) Tree.nil) 6986 (.signature 6) (.node Tree.nil 6987 (.signature 6) Tree.nil)) 6991 (.other 10) (.node (.node Tree.nil
  6992 (.signature 6) Tree.nil) 6994 (.named 19) Tree.nil)))) 6997 (.signature 6) (.node (.node (.node (.node (.node Tree.nil 6998 (.named 736)
  Tree.nil) 6999 (.string) (.node Tree.nil 7000 (.named 736) Tree.nil)) 7001 (.pointer (.named 736)) (.node (.node Tree.nil 7002 (.pointer (.named
  736)) Tree.nil) 7007 (.signature 6) Tree.nil)) 7010 (.other 10) (.node (.node (.node Tree.nil 7011 (.signature 6) Tree.nil) 7012 (.signature 6)
  (.node Tree.nil 7013 (.signature 6) Tree.nil)) 7016 (.other 10) (.node (.node Tree.nil 7017 (.signature 6) Tree.nil) 7018 (.signature 6)
  Tree.nil))) 7019 (.signature 6) (.node (.node (.node (.node Tree.nil 7022 (.other 10) Tree.nil) 7023 (.signature 6) (.node Tree.nil 7025
  (.signature 6) Tree.nil)) 7026 (.signature 6) (.node (.node Tree.nil 7027 (.signature 6) Tree.nil) 7032 (.signature 6) Tree.nil)) 7034 (.named 19)
  (.node (.node (.node Tree.nil 7037 (.signature 6) Tree.nil) 7038 (.named 736) (.node Tree.nil 7039 (.string) Tree.nil)) 7040 (.named 736) (.node
  (.node Tree.nil 7041 (.named 736) Tree.nil) 7042 (.pointer (.named 736)) Tree.nil))))) 7045 (.signature 6) (.node (.node (.node (.node (.node
  (.node Tree.nil 7047 (.other 10) Tree.nil) 7048 (.signature 6) (.node Tree.nil 7049 (.other 10) Tree.nil)) 7051 (.named 19) (.node (.node Tree.nil
  7054 (.signature 6) Tree.nil) 7055 (.named 736) Tree.nil)) 7056 (.string) (.node (.node (.node Tree.nil 7057 (.string) Tree.nil) 7058 (.named 736)
  (.node Tree.nil 7059 (.pointer (.named 736)) Tree.nil)) 7062 (.signature 6) (.node (.node Tree.nil 7063 (.signature 6) Tree.nil) 7065 (.other 10)
  Tree.nil))) 7067 (.signature 6) (.node (.node (.node (.node Tree.nil 7069 (.named 19) Tree.nil) 7072 (.signature 6) (.node Tree.nil 7073 (.named
  736) Tree.nil)) 7074 (.string) (.node (.node Tree.nil 7075 (.named 736) Tree.nil) 7076 (.named 736) Tree.nil)) 7077 (.pointer (.named 736)) (.node
  (.node (.node Tree.nil 7078 (.pointer (.named 736)) Tree.nil) 7081 (.signature 6) (.node Tree.nil 7084 (.signature 6) Tree.nil)) 7085 (.signature
  6) (.node (.node Tree.nil 7086 (.signature 6) Tree.nil) 7090 (.other 10) Tree.nil)))) 7091 (.signature 6) (.node (.node (.node (.node (.node
  Tree.nil 7092 (.signature 6) Tree.nil) 7093 (.named 19) (.node Tree.nil 7096 (.other 10) Tree.nil)) 7097 (.signature 6) (.node (.node Tree.nil
  7098 (.signature 6) Tree.nil) 7099 (.named 19) Tree.nil)) 7102 (.other 10) (.node (.node (.node Tree.nil 7104 (.named 19) Tree.nil) 7107
  (.signature 6) (.node Tree.nil 7108 (.named 736) Tree.nil)) 7109 (.string) (.node (.node Tree.nil 7110 (.named 736) Tree.nil) 7111 (.pointer
  (.named 736)) Tree.nil))) 7114 (.signature 6) (.node (.node (.node (.node Tree.nil 7115 (.named 19) Tree.nil) 7118 (.other 10) (.node Tree.nil
  7120 (.named 19) Tree.nil)) 7123 (.signature 6) (.node (.node Tree.nil 7125 (.named 736) Tree.nil) 7126 (.pointer (.named 736)) Tree.nil)) 7129
  (.signature 71) (.node (.node (.node Tree.nil 7130 (.named 736) Tree.nil) 7131 (.string) (.node Tree.nil 7132 (.named 736) Tree.nil)) 7133
  (.pointer (.named 736)) (.node (.node Tree.nil 7136 (.signature 71) Tree.nil) 7137 (.signature 71) Tree.nil))))))) 7138 (.pointer (.named 736))
  (.node (.node (.node (.node (.node (.node (.node (.node Tree.nil 7139 (.pointer (.named 736)) Tree.nil) 7142 (.signature 6) (.node Tree.nil 7143
  (.named 19) Tree.nil)) 7148 (.untypedNil) (.node (.node Tree.nil 7152 (.signature 72) Tree.nil) 7155 (.named 736) (.node Tree.nil 7156 (.pointer
  (.named 736)) Tree.nil))) 7159 (.signature 71) (.node (.node (.node Tree.nil 7162 (.signature 72) Tree.nil) 7164 (.named 736) (.node Tree.nil 7165
  (.pointer (.named 736)) Tree.nil)) 7168 (.signature 71) (.node (.node Tree.nil 7169 (.named 736) Tree.nil) 7170 (.string) Tree.nil))) 7171 (.named
  736) (.node (.node (.node (.node Tree.nil 7172 (.pointer (.named 736)) Tree.nil) 7175 (.signature 71) (.node Tree.nil 7179 (.signature 71)
  Tree.nil)) 7181 (.named 736) (.node (.node Tree.nil 7182 (.pointer (.named 736)) Tree.nil) 7185 (.signature 71) Tree.nil)) 7186 (.other 10) (.node
  (.node (.node Tree.nil 7187 (.named 736) Tree.nil) 7189 (.string) (.node Tree.nil 7192 (.signature 11) Tree.nil)) 7193 (.string) (.node (.node
  Tree.nil 7196 (.signature 11) Tree.nil) 7197 (.string) Tree.nil)))) 7198 (.named 736) (.node (.node (.node (.node (.node Tree.nil 7199 (.pointer
  (.named 736)) Tree.nil) 7202 (.other 10) (.node Tree.nil 7205 (.named 736) Tree.nil)) 7206 (.pointer (.named 736)) (.node (.node Tree.nil 7209
  (.signature 71) Tree.nil) 7212 (.signature 72) Tree.nil)) 7214 (.named 736) (.node (.node (.node Tree.nil 7215 (.pointer (.named 736)) Tree.nil)
  7218 (.signature 71) (.node Tree.nil 7219 (.named 736) Tree.nil)) 7220 (.string) (.node (.node Tree.nil 7221 (.named 736) Tree.nil) 7222 (.pointer
  (.named 736)) Tree.nil))) 7225 (.signature 71) (.node (.node (.node (.node Tree.nil 7228 (.signature 72) Tree.nil) 7229 (.signature 71) (.node
  Tree.nil 7230 (.pointer (.named 736)) Tree.nil)) 7233 (.other 10) (.node (.node Tree.nil 7234 (.signature 72) Tree.nil) 7235 (.signature 71)
  Tree.nil)) 7236 (.pointer (.named 736)) (.node (.node (.node Tree.nil 7239 (.other 10) Tree.nil) 7240 (.signature 71) (.node Tree.nil 7242 (.named
  736) Tree.nil)) 7243 (.pointer (.named 736)) (.node (.node Tree.nil 7246 (.signature 71) Tree.nil) 7247 (.signature 72) Tree.nil))))) 7248
  (.signature 71) (.node (.node (.node (.node (.node (.node Tree.nil 7252 (.signature 71) Tree.nil) 7253 (.pointer (.named 736)) (.node Tree.nil
  7256 (.other 10) Tree.nil)) 7257 (.signature 71) (.node (.node Tree.nil 7258 (.signature 72) Tree.nil) 7259 (.signature 71) Tree.nil)) 7261
  (.signature 71) (.node (.node (.node Tree.nil 7262 (.pointer (.named 736)) Tree.nil) 7265 (.other 10) (.node Tree.nil 7266 (.pointer (.named 736))
  Tree.nil)) 7267 (.named 736) (.node (.node Tree.nil 7268 (.string) Tree.nil) 7269 (.named 736) Tree.nil))) 7270 (.pointer (.named 736)) (.node
  (.node (.node (.node Tree.nil 7273 (.named 736) Tree.nil) 7274 (.pointer (.named 736)) (.node Tree.nil 7277 (.signature 71) Tree.nil)) 7278
  (.pointer (.named 736)) (.node (.node Tree.nil 7281 (.signature 71) Tree.nil) 7282 (.pointer (.named 736)) Tree.nil)) 7287 (.untypedNil) (.node
  (.node (.node Tree.nil 7291 (.signature 6) Tree.nil) 7293 (.named 19) (.node Tree.nil 7296 (.signature 6) Tree.nil)) 7297 (.signature 6) (.node
  (.node Tree.nil 7298 (.signature 6) Tree.nil) 7300 (.named 19) Tree.nil)))) 7303 (.signature 6) (.node (.node (.node (.node (.node Tree.nil 7304
  (.named 736) Tree.nil) 7305 (.string) (.node Tree.nil 7306 (.named 736) Tree.nil)) 7307 (.pointer (.named 736)) (.node (.node Tree.nil 7310
  (.signature 6) Tree.nil) 7312 (.named 19) Tree.nil)) 7315 (.signature 6) (.node (.node (.node Tree.nil 7316 (.named 736) Tree.nil) 7317 (.string)
  (.node Tree.nil 7318 (.named 736) Tree.nil)) 7319 (.pointer (.named 736)) (.node (.node Tree.nil 7322 (.signature 6) Tree.nil) 7326 (.signature 6)
  Tree.nil))) 7327 (.signature 6) (.node (.node (.node (.node Tree.nil 7329 (.named 19) Tree.nil) 7332 (.signature 6) (.node Tree.nil 7333 (.named
  736) Tree.nil)) 7334 (.string) (.node (.node Tree.nil 7335 (.named 736) Tree.nil) 7336 (.pointer (.named 736)) Tree.nil)) 7339 (.signature 6)
  (.node (.node (.node Tree.nil 7341 (.named 19) Tree.nil) 7344 (.signature 6) (.node Tree.nil 7345 (.named 736) Tree.nil)) 7346 (.string) (.node
  (.node Tree.nil 7347 (.named 736) Tree.nil) 7348 (.pointer (.named 736)) Tree.nil)))))) 7351 (.signature 6) (.node (.node (.node (.node (.node
  (.node (.node Tree.nil 7353 (.signature 6) Tree.nil) 7354 (.signature 6) (.node Tree.nil 7355 (.signature 74) Tree.nil)) 7356 (.tuple 73) (.node
  (.node Tree.nil 7361 (.signature 6) Tree.nil) 7362 (.signature 74) Tree.nil)) 7363 (.tuple 73) (.node (.node (.node Tree.nil 7365 (.other 10)
  Tree.nil) 7366 (.signature 6) (.node Tree.nil 7367 (.named 19) Tree.nil)) 7370 (.other 10) (.node (.node Tree.nil 7371 (.signature 6) Tree.nil)
  7372 (.named 19) Tree.nil))) 7375 (.other 10) (.node (.node (.node (.node Tree.nil 7376 (.signature 6) Tree.nil) 7377 (.named 19) (.node Tree.nil
  7380 (.untypedNil) Tree.nil)) 7387 (.signature 74) (.node (.node Tree.nil 7390 (.named 19) Tree.nil) 7393 (.signature 6) Tree.nil)) 7395 (.named
  19) (.node (.node (.node Tree.nil 7398 (.signature 6) Tree.nil) 7402 (.signature 74) (.node Tree.nil 7403 (.untypedNil) Tree.nil)) 7404
  (.untypedNil) (.node (.node Tree.nil 7408 (.signature 6) Tree.nil) 7410 (.named 19) Tree.nil)))) 7413 (.signature 6) (.node (.node (.node (.node
  (.node Tree.nil 7414 (.named 19) Tree.nil) 7415 (.named 19) (.node Tree.nil 7418 (.named 19) Tree.nil)) 7421 (.signature 12) (.node (.node
  Tree.nil 7422 (.named 19) Tree.nil) 7425 (.signature 12) Tree.nil)) 7427 (.signature 21) (.node (.node (.node Tree.nil 7428 (.signature 21)
  Tree.nil) 7429 (.string) (.node Tree.nil 7430 (.named 19) Tree.nil)) 7431 (.named 19) (.node (.node Tree.nil 7435 (.signature 6) Tree.nil) 7437
  (.named 19) Tree.nil))) 7440 (.signature 6) (.node (.node (.node (.node Tree.nil 7441 (.named 19) Tree.nil) 7442 (.named 19) (.node Tree.nil 7446
  (.named 19) Tree.nil)) 7447 (.named 19) (.node (.node Tree.nil 7450 (.signature 75) Tree.nil) 7451 (.named 19) Tree.nil)) 7452 (.named 19) (.node
  (.node (.node Tree.nil 7455 (.signature 75) Tree.nil) 7457 (.signature 21) (.node Tree.nil 7458 (.signature 21) Tree.nil)) 7459 (.string) (.node
  (.node Tree.nil 7460 (.named 19) Tree.nil) 7461 (.tuple 56) Tree.nil))))) 7463 (.named 19) (.node (.node (.node (.node (.node (.node Tree.nil 7467
  (.named 736) Tree.nil) 7468 (.string) (.node Tree.nil 7469 (.string) Tree.nil)) 7472 (.struct 1) (.node (.node Tree.nil 7475 (.pointer (.named
  736)) Tree.nil) 7476 (.named 736) Tree.nil)) 7477 (.pointer (.named 736)) (.node (.node (.node Tree.nil 7480 (.signature 11) Tree.nil) 7482
  (.string) (.node Tree.nil 7485 (.signature 11) Tree.nil)) 7486 (.pointer (.named 736)) (.node (.node Tree.nil 7487 (.string) Tree.nil) 7488
  (.string) Tree.nil))) 7492 (.pointer (.named 736)) (.node (.node (.node (.node Tree.nil 7493 (.named 736) Tree.nil) 7494 (.pointer (.named 736))
  (.node Tree.nil 7497 (.signature 11) Tree.nil)) 7499 (.string) (.node (.node Tree.nil 7502 (.signature 11) Tree.nil) 7503 (.pointer (.named 736))
  Tree.nil)) 7504 (.string) (.node (.node (.node Tree.nil 7505 (.string) Tree.nil) 7509 (.pointer (.named 736)) (.node Tree.nil 7510 (.named 736)
  Tree.nil)) 7511 (.pointer (.named 736)) (.node (.node Tree.nil 7514 (.signature 23) Tree.nil) 7516 (.string) Tree.nil)))) 7517 (.string) (.node
  (.node (.node (.node (.node Tree.nil 7518 (.map (.string) (.string)) Tree.nil) 7521 (.signature 23) (.node Tree.nil 7522 (.untypedNil) Tree.nil))
  7526 (.pointer (.named 736)) (.node (.node Tree.nil 7527 (.named 736) Tree.nil) 7528 (.pointer (.named 736)) Tree.nil)) 7531 (.signature 6) (.node
  (.node (.node Tree.nil 7533 (.named 19) Tree.nil) 7536 (.signature 6) (.node Tree.nil 7537 (.untypedNil) Tree.nil)) 7541 (.pointer (.named 736))
  (.node (.node Tree.nil 7542 (.named 736) Tree.nil) 7543 (.pointer (.named 736)) Tree.nil))) 7546 (.signature 11) (.node (.node (.node (.node
  Tree.nil 7548 (.string) Tree.nil) 7551 (.signature 11) (.node Tree.nil 7552 (.pointer (.named 736)) Tree.nil)) 7553 (.signature 11) (.node (.node
  Tree.nil 7554 (.signature 11) Tree.nil) 7555 (.string) Tree.nil)) 7561 (.signature 6) (.node (.node (.node Tree.nil 7563 (.named 19) Tree.nil)
  7566 (.signature 6) (.node Tree.nil 7567 (.named 736) Tree.nil)) 7568 (.string) (.node (.node Tree.nil 7569 (.named 736) Tree.nil) 7570 (.pointer
  (.named 736)) Tree.nil))))))))
/-- Constant values of expressions. -/
def valueTable : Tree Const := (.node (.node (.node (.node (.node (.node Tree.nil 6751 (.str s35) Tree.nil) 6763 (.str s36) (.node Tree.nil 6785
  (.str s37) Tree.nil)) 6809 (.str s38) (.node (.node Tree.nil 6818 (.other) Tree.nil) 6826 (.str s39) (.node Tree.nil 6834 (.other) Tree.nil)))
  6839 (.other) (.node (.node (.node Tree.nil 6844 (.other) Tree.nil) 6860 (.str s40) (.node Tree.nil 6869 (.other) Tree.nil)) 6876 (.str s41)
  (.node (.node Tree.nil 6883 (.other) Tree.nil) 6892 (.str s42) Tree.nil))) 6905 (.other) (.node (.node (.node (.node Tree.nil 6910 (.other)
  Tree.nil) 6915 (.other) (.node Tree.nil 6922 (.str s43) Tree.nil)) 6931 (.other) (.node (.node Tree.nil 6944 (.str s44) Tree.nil) 6981 (.str s38)
  (.node Tree.nil 6991 (.other) Tree.nil))) 6999 (.str s39) (.node (.node (.node Tree.nil 7010 (.other) Tree.nil) 7016 (.other) (.node Tree.nil 7022
  (.other) Tree.nil)) 7039 (.str s40) (.node (.node Tree.nil 7049 (.other) Tree.nil) 7056 (.str s41) Tree.nil)))) 7057 (.str s41) (.node (.node
  (.node (.node (.node Tree.nil 7065 (.other) Tree.nil) 7074 (.str s42) (.node Tree.nil 7090 (.other) Tree.nil)) 7096 (.other) (.node (.node
  Tree.nil 7102 (.other) Tree.nil) 7109 (.str s43) (.node Tree.nil 7118 (.other) Tree.nil))) 7131 (.str s44) (.node (.node (.node Tree.nil 7170
  (.str s45) Tree.nil) 7186 (.other) (.node Tree.nil 7193 (.str s46) Tree.nil)) 7202 (.other) (.node (.node Tree.nil 7220 (.str s45) Tree.nil) 7233
  (.other) Tree.nil))) 7239 (.other) (.node (.node (.node (.node Tree.nil 7256 (.other) Tree.nil) 7265 (.other) (.node Tree.nil 7268 (.str s47)
  Tree.nil)) 7305 (.str s48) (.node (.node Tree.nil 7317 (.str s49) Tree.nil) 7334 (.str s50) Tree.nil)) 7346 (.str s51) (.node (.node (.node
  Tree.nil 7365 (.other) Tree.nil) 7370 (.other) (.node Tree.nil 7375 (.other) Tree.nil)) 7429 (.str s52) (.node (.node Tree.nil 7459 (.str s52)
  Tree.nil) 7568 (.str s53) Tree.nil)))))
/-- `typeutil.Callee` of call expressions. -/
def calleeTable : Tree Nat := (.node (.node (.node (.node (.node Tree.nil 6907 (746) Tree.nil) 6912 (749) Tree.nil) 7093 (750) (.node Tree.nil 7099
  (753) Tree.nil)) 7235 (730) (.node (.node Tree.nil 7248 (730) Tree.nil) 7253 (754) (.node Tree.nil 7259 (730) Tree.nil))) 7262 (755) (.node (.node
  (.node (.node Tree.nil 7356 (733) Tree.nil) 7363 (733) Tree.nil) 7367 (757) (.node Tree.nil 7372 (758) Tree.nil)) 7377 (759) (.node (.node
  Tree.nil 7430 (40) Tree.nil) 7460 (40) (.node Tree.nil 7555 (738) Tree.nil))))
/-- `Info.Uses`. -/
def usesTable : Tree Nat := (.node (.node (.node (.node (.node (.node (.node (.node Tree.nil 6736 (736) Tree.nil) 6742 (736) Tree.nil) 6749 (744)
  (.node (.node Tree.nil 6750 (736) Tree.nil) 6762 (736) Tree.nil)) 6768 (745) (.node (.node (.node Tree.nil 6774 (744) Tree.nil) 6780 (19)
  Tree.nil) 6784 (736) (.node Tree.nil 6793 (19) Tree.nil))) 6799 (19) (.node (.node (.node (.node Tree.nil 6804 (19) Tree.nil) 6808 (736) Tree.nil)
  6818 (21) (.node (.node Tree.nil 6819 (746) Tree.nil) 6821 (19) Tree.nil)) 6825 (736) (.node (.node (.node Tree.nil 6834 (21) Tree.nil) 6835 (746)
  Tree.nil) 6836 (727) (.node Tree.nil 6839 (21) Tree.nil)))) 6840 (746) (.node (.node (.node (.node (.node Tree.nil 6841 (742) Tree.nil) 6844 (21)
  Tree.nil) 6845 (746) (.node (.node Tree.nil 6847 (712) Tree.nil) 6855 (19) Tree.nil)) 6859 (736) (.node (.node (.node Tree.nil 6869 (21) Tree.nil)
  6871 (19) Tree.nil) 6875 (736) (.node Tree.nil 6883 (22) Tree.nil))) 6885 (749) (.node (.node (.node (.node Tree.nil 6887 (19) Tree.nil) 6891
  (736) Tree.nil) 6900 (749) (.node (.node Tree.nil 6901 (747) Tree.nil) 6905 (21) Tree.nil)) 6906 (746) (.node (.node (.node Tree.nil 6910 (21)
  Tree.nil) 6911 (749) Tree.nil) 6915 (21) (.node Tree.nil 6917 (19) Tree.nil))))) 6921 (736) (.node (.node (.node (.node (.node (.node Tree.nil
  6931 (21) Tree.nil) 6933 (19) Tree.nil) 6938 (736) (.node (.node Tree.nil 6943 (736) Tree.nil) 6959 (23) Tree.nil)) 6965 (19) (.node (.node (.node
  Tree.nil 6971 (19) Tree.nil) 6976 (19) Tree.nil) 6980 (736) (.node Tree.nil 6991 (21) Tree.nil))) 6992 (750) (.node (.node (.node (.node Tree.nil
  6994 (19) Tree.nil) 6998 (736) Tree.nil) 7010 (21) (.node (.node Tree.nil 7011 (750) Tree.nil) 7012 (727) Tree.nil)) 7016 (21) (.node (.node
  (.node Tree.nil 7017 (750) Tree.nil) 7018 (742) Tree.nil) 7022 (21) (.node Tree.nil 7023 (750) Tree.nil)))) 7025 (712) (.node (.node (.node (.node
  (.node Tree.nil 7034 (19) Tree.nil) 7038 (736) Tree.nil) 7049 (21) (.node (.node Tree.nil 7051 (19) Tree.nil) 7055 (736) Tree.nil)) 7065 (22)
  (.node (.node (.node Tree.nil 7067 (753) Tree.nil) 7069 (19) Tree.nil) 7073 (736) (.node Tree.nil 7084 (753) Tree.nil))) 7085 (751) (.node (.node
  (.node (.node Tree.nil 7090 (21) Tree.nil) 7091 (750) Tree.nil) 7096 (21) (.node Tree.nil 7097 (753) Tree.nil)) 7102 (21) (.node (.node (.node
  Tree.nil 7104 (19) Tree.nil) 7108 (736) Tree.nil) 7118 (21) (.node Tree.nil 7120 (19) Tree.nil)))))) 7125 (736) (.node (.node (.node (.node (.node
  (.node (.node Tree.nil 7130 (736) Tree.nil) 7148 (23) Tree.nil) 7155 (736) (.node (.node Tree.nil 7164 (736) Tree.nil) 7169 (736) Tree.nil)) 7181
  (736) (.node (.node (.node Tree.nil 7186 (21) Tree.nil) 7187 (736) Tree.nil) 7189 (16) (.node Tree.nil 7202 (21) Tree.nil))) 7205 (736) (.node
  (.node (.node (.node Tree.nil 7214 (736) Tree.nil) 7219 (736) Tree.nil) 7233 (21) (.node (.node Tree.nil 7234 (730) Tree.nil) 7239 (21) Tree.nil))
  7242 (736) (.node (.node (.node Tree.nil 7247 (730) Tree.nil) 7252 (754) Tree.nil) 7256 (21) (.node Tree.nil 7258 (730) Tree.nil)))) 7261 (755)
  (.node (.node (.node (.node (.node Tree.nil 7265 (21) Tree.nil) 7267 (736) Tree.nil) 7273 (736) (.node (.node Tree.nil 7278 (756) Tree.nil) 7287
  (23) Tree.nil)) 7293 (19) (.node (.node (.node Tree.nil 7300 (19) Tree.nil) 7304 (736) Tree.nil) 7312 (19) (.node Tree.nil 7316 (736) Tree.nil)))
  7326 (757) (.node (.node (.node (.node Tree.nil 7327 (758) Tree.nil) 7329 (19) Tree.nil) 7333 (736) (.node (.node Tree.nil 7341 (19) Tree.nil)
  7345 (736) Tree.nil)) 7355 (733) (.node (.node (.node Tree.nil 7361 (759) Tree.nil) 7362 (733) Tree.nil) 7365 (21) (.node Tree.nil 7366 (757)
  Tree.nil))))) 7370 (21) (.node (.node (.node (.node (.node (.node Tree.nil 7371 (758) Tree.nil) 7375 (21) Tree.nil) 7376 (759) (.node (.node
  Tree.nil 7380 (23) Tree.nil) 7390 (19) Tree.nil)) 7395 (19) (.node (.node (.node Tree.nil 7403 (23) Tree.nil) 7404 (23) Tree.nil) 7410 (19) (.node
  Tree.nil 7415 (19) Tree.nil))) 7418 (19) (.node (.node (.node (.node Tree.nil 7422 (761) Tree.nil) 7427 (40) Tree.nil) 7437 (19) (.node (.node
  Tree.nil 7442 (19) Tree.nil) 7447 (19) Tree.nil)) 7451 (762) (.node (.node (.node Tree.nil 7452 (763) Tree.nil) 7457 (40) Tree.nil) 7463 (762)
  (.node Tree.nil 7469 (16) Tree.nil)))) 7476 (736) (.node (.node (.node (.node (.node Tree.nil 7482 (16) Tree.nil) 7486 (764) Tree.nil) 7487 (105)
  (.node (.node Tree.nil 7493 (736) Tree.nil) 7499 (16) Tree.nil)) 7503 (765) (.node (.node (.node Tree.nil 7504 (105) Tree.nil) 7510 (736)
  Tree.nil) 7516 (16) (.node Tree.nil 7517 (16) Tree.nil))) 7522 (23) (.node (.node (.node (.node Tree.nil 7527 (736) Tree.nil) 7533 (19) Tree.nil)
  7537 (23) (.node Tree.nil 7542 (736) Tree.nil)) 7548 (16) (.node (.node (.node Tree.nil 7552 (768) Tree.nil) 7553 (738) Tree.nil) 7563 (19) (.node
  Tree.nil 7567 (736) Tree.nil)))))))
/-- `Info.Selections`. -/
def selectionTable : Tree (GoType × Nat) := (.node (.node Tree.nil 7488 ((.pointer (.named 736), 105)) Tree.nil) 7505 ((.pointer (.named 736), 105))
  (.node Tree.nil 7554 ((.pointer (.named 736), 738)) Tree.nil))
/-- Identifiers that are names of imported packages. -/
def pkgNameTable : Tree GoString := (.node (.node (.node Tree.nil 6846 (s8) Tree.nil) 7024 (s8) Tree.nil) 7426 (s26) (.node Tree.nil 7456 (s26)
  Tree.nil))
/-- Method sets. -/
def methodSetTable : Tree (List (GoString × Nat)) := (.node (.node Tree.nil 27 ([(s34, 1386)]) Tree.nil) 95 ([(s34, 20)]) (.node Tree.nil 3681
  ([(s33, 740), (s29, 737), (s32, 739), (s34, 741), (s31, 738)]) Tree.nil))
/-- Types implementing `error`. -/
def implErrorTable : Tree Unit := (.node (.node Tree.nil 27 (()) Tree.nil) 95 (()) (.node Tree.nil 3681 (()) Tree.nil))
/-- Types implementing `error` with a code. -/
def implCodeTable : Tree Unit := (.node Tree.nil 3681 (()) Tree.nil)
/-- Types implementing `error` with a cause. -/
def implCauseTable : Tree Unit := (.node Tree.nil 3681 (()) Tree.nil)
/-- Signatures: types of parameters, variadic, number of results. -/
def sigTable : Tree (List GoType × Bool × Nat) := (.node (.node (.node (.node Tree.nil 6 (([], false, 1)) Tree.nil) 11 (([], false, 1)) Tree.nil) 12
  (([.named 19], false, 1)) (.node (.node Tree.nil 15 (([], false, 0)) Tree.nil) 21 (([.string, .slice (.interface 3)], true, 1)) Tree.nil)) 23
  (([], false, 1)) (.node (.node (.node Tree.nil 71 (([], false, 1)) Tree.nil) 72 (([], false, 1)) Tree.nil) 74 (([], false, 2)) (.node Tree.nil 75
  (([.named 19], false, 0)) Tree.nil)))
/-- Tuples of results. -/
def tupleTable : Tree (List GoType) := (.node (.node Tree.nil 56 ([]) Tree.nil) 73 ([.signature 6, .signature 6]) Tree.nil)
/-- Fields of structs. -/
def structTable : Tree (List (GoString × GoType)) := (.node Tree.nil 1 ([(s30, .string)]) Tree.nil)
/-- Underlying types of named types. -/
def underlyingTable : Tree GoType := (.node (.node Tree.nil 19 (.interface 5) Tree.nil) 736 (.struct 1) Tree.nil)
/-- Which types implement which interfaces. -/
def implTable : Tree (Tree Unit) := (.node Tree.nil 5 ((.node (.node Tree.nil 27 (()) Tree.nil) 95 (()) (.node Tree.nil 3681 (()) Tree.nil)))
  Tree.nil)
/-- Comments at return statements (`ast.NewCommentMap`). -/
def commentTable : Tree (List (List GoString)) := (.node (.node (.node Tree.nil 7226 ([[s54]]) Tree.nil) 7279 ([[s55]]) Tree.nil) 7423 ([[s55]])
  (.node Tree.nil 7432 ([[s56]]) Tree.nil))
/-- Function declarations. -/
def declTable : Tree DeclInfo := (.node (.node (.node (.node (.node Tree.nil 0 (⟨s0, true, none, some (CommentText.text [s57, s58, s59]), 6777, 726,
  []⟩) Tree.nil) 3 (⟨s3, false, none, none, 6790, 727, []⟩) Tree.nil) 4 (⟨s4, true, none, some (CommentText.text [s57, s58, s60, s61, s62, s63, s64,
  s65, s66, s67, s68, s69]), 6962, 728, []⟩) (.node Tree.nil 13 (⟨s14, true, none, some (CommentText.text [s57, s58, s60, s61, s62, s63, s64, s65,
  s66, s67, s68, s69]), 7151, 729, []⟩) Tree.nil)) 22 (⟨s15, false, none, none, 7178, 730, []⟩) (.node (.node Tree.nil 24 (⟨s16, true, none, some
  (CommentText.text [s70]), 7290, 731, []⟩) Tree.nil) 29 (⟨s19, true, none, some (CommentText.text [s57, s58, s71, s72, s73, s74]), 7386, 732, []⟩)
  (.node Tree.nil 34 (⟨s23, true, none, none, 7407, 733, []⟩) Tree.nil))) 35 (⟨s24, true, none, some (CommentText.text [s70]), 7434, 734, []⟩)
  (.node (.node (.node Tree.nil 37 (⟨s28, true, none, some (CommentText.text [s70]), 7466, 735, []⟩) Tree.nil) 39 (⟨s29, true, some 7477, none,
  7491, 737, [⟨7475, s25, (some 32)⟩]⟩) (.node Tree.nil 40 (⟨s31, true, some 7494, none, 7508, 738, [⟨7492, s25, (some 33)⟩]⟩) Tree.nil)) 41 (⟨s32,
  true, some 7511, none, 7525, 739, [⟨7509, s25, (some 34)⟩]⟩) (.node (.node Tree.nil 42 (⟨s33, true, some 7528, none, 7540, 740, [⟨7526, s25, (some
  35)⟩]⟩) Tree.nil) 43 (⟨s34, true, some 7543, none, 7558, 741, [⟨7541, s25, (some 36)⟩]⟩) (.node Tree.nil 44 (⟨s7, false, none, none, 7573, 742,
  []⟩) Tree.nil))))
/-- Named interfaces. -/
def interfaceTable : Tree Unit := (.node Tree.nil 19 (()) Tree.nil)
/-- Methods of named types. -/
def methodNameTable : Tree (List GoString) := (.node Tree.nil 736 ([s29, s31, s32, s33, s34]) Tree.nil)
/-- Objects of interface methods. -/
def methodObjTable : Tree Nat := Tree.nil
/-- Syntax and types of the package, and the facts exported by the packages it imports. -/
def env : Env where
  funcs := [f0, f1, f2, f3, f4, f5, f6, f7, f8, f9, f10, f11, f12, f13, f14, f15, f16, f17, f18, f19, f20, f21, f22, f23, f24, f25, f26, f27, f28,
  f29, f30, f31, f32, f33, f34, f35, f36, f37, f38, f39, f40, f41, f42, f43, f44]
  objects := objects
  typeOf := fun n => (typeTable.find n).getD (.other 0)
  value := valueTable.find
  callee := calleeTable.find
  uses := usesTable.find
  selection := selectionTable.find
  pkgName := pkgNameTable.find
  funcObj := fun f => ((declTable.find f).map (·.obj)).getD 0
  implError := fun t => has implErrorTable t
  implCode := fun t => has implCodeTable t
  sigResults := fun n => ((sigTable.find n).map (·.2.2)).getD 0
  methodSet := fun t name => ((typeKey t).bind methodSetTable.find).bind fun l => lookup name l
  functions := fun _ => none
  methods := fun _ => []
  comments := fun n => ((commentTable.find n).getD []).map CommentText.text
  isPrint := fun r => 32 ≤ r && r < 127
  facts := merge (noFacts) (Check.factsOf funcLiteralInner.result)
/-- The package. -/
def package : Package where
  env := env
  decls := ⟨fun f => ((declTable.find f).map (·.name)).getD [], fun f => ((declTable.find f).map (·.exported)).getD false,
    fun f => (declTable.find f).bind (·.recv), fun f => (declTable.find f).bind (·.doc), fun t => has implCauseTable t,
    fun f => ((declTable.find f).map (·.pos)).getD 0⟩
  types := ⟨fun f => (((declTable.find f).bind (·.recv)).bind typeTable.find).getD (.other 0),
    fun f => ((declTable.find f).map (·.recvNames)).getD [], fun o => (interfaceTable.find o).isSome,
    fun o => (methodNameTable.find o).getD []⟩
  funcs := [0, 3, 4, 13, 22, 24, 29, 34, 35, 37, 39, 40, 41, 42, 43, 44]
  specs := [⟨7474, .named 736, some [[s30]]⟩]
  ifaces := []
  methodObj := fun n => (methodObjTable.find n).getD 0
  conv := ⟨fun o => (underlyingTable.find o).getD (.other 0), fun n => ((sigTable.find n).map (·.1)).getD [],
    fun n => ((sigTable.find n).map (·.2.1)).getD false, fun n => (tupleTable.find n).getD [], fun n => (structTable.find n).getD [],
    fun t n => n == 3 || ((implTable.find n).map fun tr => has tr t).getD false⟩
  top := [
    .node (.other 6733 [.other 6730 [.basicLit 6729], .other 6732 [.basicLit 6731]]),
    .func 0,
    .func 3,
    .func 4,
    .func 13,
    .func 22,
    .func 24,
    .func 29,
    .func 34,
    .func 35,
    .func 37,
    .node (.other 7474 [.other 7473 [.ident ⟨7467, s34, (some 1)⟩, .other 7472 [.other 7471 [.other 7470 [.ident ⟨7468, s30, (some 31)⟩, .ident
  ⟨7469, s75, none⟩]]]]]),
    .func 39,
    .func 40,
    .func 41,
    .func 42,
    .func 43,
    .func 44]
/-- The run, in one order. -/
def result : Except Stop Outcome := runVerify package Check.source true
/-- What is expected.  The comments in the package say (with facts as `object: fact`):
```
func_literal.go:11: AssignmentInLambda: ErrorCodes: some-error
func_literal.go:39: LambdasReturningErrors: ErrorCodes: function-1-error function-2-error lambda-1-error lambda-2-error lambda-3-error lambda-4-error lambda-5-error lambda-6-error lambda-7-error other-function-error
func_literal.go:102: LambdasReturningErrorsWithParen: ErrorCodes: function-1-error function-2-error lambda-1-error lambda-2-error lambda-3-error lambda-4-error lambda-5-error lambda-6-error lambda-7-error other-function-error
func_literal.go:162: OutOfBounds: ErrorCodes:
func_literal.go:165: error code has to be constant value or error code parameter
func_literal.go:167: invalid error source: definition of the unnamed function could not be found
func_literal.go:173: invalid error source: definition of the unnamed function could not be found
func_literal.go:175: assignment to variable "lambda" can only be an identifier or function literal
func_literal.go:178: assignment to variable "funcLit" can only be an identifier or function literal
func_literal.go:183: returned error may not be a parameter, global variable or other variables declared outside of the function body
func_literal.go:195: TwinAssignLambda: ErrorCodes: f1-1-error f1-2-error f2-1-error f2-2-error
func_literal.go:198: unsupported: assigning result of function call to variable "f3" is not allowed
func_literal.go:199: unsupported: assigning result of function call to variable "f3" is not allowed
func_literal.go:217: InvalidErrorFromLambdaParam: ErrorCodes
func_literal.go:219: returned error may not be a parameter, global variable or other variables declared outside of the function body
func_literal.go:224: InvalidErrorFromLambdaParam2: ErrorCodes
func_literal.go:227: returned error may not be a parameter, receiver or global variable
func_literal.go:232: Error: ErrorType{Field:{Name:"TheCode", Position:0}, Codes:}
``` -/
def expected : Check.Expected where
  tags := []
  ifaces := []
  signatures := []
  claims := []
  bodies := [(24, { at_ := 7197, msg := Serum.Msg.notConstant }),
    (24, { at_ := 7229, msg := Serum.Msg.unnamedFunction }),
    (24, { at_ := 7235, msg := Serum.Msg.unnamedFunction }),
    (24, { at_ := 7248, msg := Serum.Msg.lambdaUnsupported b!"lambda" }),
    (24, { at_ := 7259, msg := Serum.Msg.lambdaUnsupported b!"funcLit" }),
    (28, { at_ := 7278, msg := Serum.Msg.errorOutOfScope }),
    (29, { at_ := 7356, msg := Serum.Msg.lambdaDestructured b!"f3" }),
    (29, { at_ := 7363, msg := Serum.Msg.lambdaDestructured b!"f3" }),
    (36, { at_ := 7422, msg := Serum.Msg.errorOutOfScope }),
    (37, { at_ := 7452, msg := Serum.Msg.errorOutOfScope })]
  mismatches := []
  conversions := []
  codes := [(712, [b!"function-2-error"]),
    (726, [b!"some-error"]),
    (728, [b!"lambda-1-error", b!"lambda-2-error", b!"lambda-3-error", b!"lambda-4-error", b!"lambda-5-error", b!"lambda-6-error", b!"lambda-7-error", b!"function-1-error", b!"function-2-error", b!"other-function-error"]),
    (729, [b!"lambda-1-error", b!"lambda-2-error", b!"lambda-3-error", b!"lambda-4-error", b!"lambda-5-error", b!"lambda-6-error", b!"lambda-7-error", b!"function-1-error", b!"function-2-error", b!"other-function-error"]),
    (731, []),
    (732, [b!"f1-1-error", b!"f1-2-error", b!"f2-1-error", b!"f2-2-error"]),
    (734, []),
    (735, [])]
  ctors := []
  errorTypes := [(713, { codes := [], field := some { name := b!"TheCode", position := 0 } }),
    (736, { codes := [], field := some { name := b!"TheCode", position := 0 } })]
  interfaces := []
  objects := 1385

/-- What functions call, and which literals they visit. -/
def graph : Check.Graph :=
  [([], []), ([], []), ([], []), ([], []), ([3, 44, 10, 11], [5, 6, 8, 9, 7]), ([], []), ([], []), ([], []), ([], []), ([], []), ([], []),
  ([12], []), ([], []), ([3, 44, 19, 20], [14, 15, 17, 18, 16]), ([], []), ([], []), ([], []), ([], []), ([], []), ([], []), ([21], []), ([],
  []), ([], []), ([], []), ([28], []), ([], []), ([], []), ([], []), ([], []), ([], [30, 32, 31, 33]), ([], []), ([], []), ([], []), ([], []),
  ([], []), ([36], []), ([], []), ([], []), ([], []), ([], []), ([], []), ([], []), ([], []), ([40], []), ([], [])]

theorem checked : Check.run package true expected graph = true := by decide +kernel

theorem imports : Check.Tables package.env.facts := (tables_noFacts.merge funcLiteralInner.exported)

theorem exported : Check.Tables (Check.factsOf result) := Check.tables checked imports

/-- The facts known before a run: those exported by some run over the imported packages. -/
def Imported (F : Facts) : Prop :=
  ∃ F0, funcLiteralInner.Exports F0 ∧ F = merge (noFacts) F0

/-- The facts known after a run. -/
def Exports (F : Facts) : Prop := Check.Exports package Imported true F

theorem imports_same (F : Facts) (h : Imported F) : Props.Run.SameFacts package.env.facts F := by
  obtain ⟨F0, h0, rfl⟩ := h
  exact (Props.Run.SameFacts.merge (.refl _) (funcLiteralInner.exports_same h0))

theorem exports_same {F : Facts} (h : Exports F) : Props.Run.SameFacts (Check.factsOf result) F :=
  Check.exports_same checked imports imports_same h

/-- **C54**: every run over the package has the expected result. -/
theorem always : Check.Always package Imported true expected :=
  Check.always checked imports imports_same

/-- For the nodes with diagnostics: file, line, and type of node. -/
def nodes : Tree (GoString × Nat × GoString) :=
  (.node (.node (.node (.node Tree.nil 7197 ((b!"func_literal.go", 165, b!"CallExpr")) Tree.nil) 7229 ((b!"func_literal.go", 167, b!"CallExpr")) Tree.nil) 7235 ((b!"func_literal.go", 173, b!"CallExpr")) (.node (.node Tree.nil 7248 ((b!"func_literal.go", 175, b!"CallExpr")) Tree.nil) 7259 ((b!"func_literal.go", 178, b!"CallExpr")) Tree.nil)) 7278 ((b!"func_literal.go", 183, b!"Ident")) (.node (.node (.node Tree.nil 7356 ((b!"func_literal.go", 198, b!"CallExpr")) Tree.nil) 7363 ((b!"func_literal.go", 199, b!"CallExpr")) Tree.nil) 7422 ((b!"func_literal.go", 219, b!"Ident")) (.node Tree.nil 7452 ((b!"func_literal.go", 227, b!"Ident")) Tree.nil)))

/-- The names of the objects named in diagnostics other than by identifiers. -/
def objectNames : Tree GoString :=
  Tree.nil

def names : Names where
  object := fun o => (objectNames.find o).getD []
  kind := fun n => ((nodes.find n).map fun p => p.2.2).getD []

def place (n : NodeId) : GoString × Nat := ((nodes.find n).map fun p => (p.1, p.2.1)).getD ([], 0)

/-- What is printed: file, line and text. -/
def lines : List Check.Line := [(b!"func_literal.go", 165, b!"error code has to be constant value or error code parameter"),
    (b!"func_literal.go", 167, b!"invalid error source: definition of the unnamed function could not be found"),
    (b!"func_literal.go", 173, b!"invalid error source: definition of the unnamed function could not be found"),
    (b!"func_literal.go", 175, b!"unsupported: assignment to variable \"lambda\" can only be an identifier or function literal"),
    (b!"func_literal.go", 178, b!"unsupported: assignment to variable \"funcLit\" can only be an identifier or function literal"),
    (b!"func_literal.go", 183, b!"returned error may not be a parameter, global variable or other variables declared outside of the function body"),
    (b!"func_literal.go", 198, b!"unsupported: assigning result of function call to variable \"f3\" is not allowed"),
    (b!"func_literal.go", 199, b!"unsupported: assigning result of function call to variable \"f3\" is not allowed"),
    (b!"func_literal.go", 219, b!"returned error may not be a parameter, global variable or other variables declared outside of the function body"),
    (b!"func_literal.go", 227, b!"returned error may not be a parameter, receiver or global variable")]

/-- **C54**: for every run over the package, these lines are printed. -/
theorem prints : Check.Prints package Imported true names place lines :=
  Check.prints always (by decide +kernel)

end Serum.Testdata.funcLiteral
