import Verif.Testdata.Support

/-!
# C54: the package analysis/testdata/src/001

Generated by `scripts/conformance/testdata.py` from invalid.go, main.go, mismatch.go.  Numbers of syntax nodes, objects and types are arbitrary.  The tables hold
what `go/parser` and `go/types` say about the package.
-/

set_option maxRecDepth 100000
set_option linter.all false

namespace Serum.Testdata.p001
open Serum Serum.Testdata

def s0 : GoString := b!"CodeNotDeclared"
def s1 : GoString := b!"ErrorNotLast"
def s2 : GoString := b!"CallToInvalidFunction"
def s3 : GoString := b!"e"
def s4 : GoString := b!"_"
def s5 : GoString := b!"false"
def s6 : GoString := b!"ReturnInvalidError"
def s7 : GoString := b!"Error"
def s8 : GoString := b!"InvalidErrorCodeFormat"
def s9 : GoString := b!"invalidErrorCodeFormat"
def s10 : GoString := b!"true"
def s11 : GoString := b!"InvalidErrorFromParameter"
def s12 : GoString := b!"p"
def s13 : GoString := b!"x"
def s14 : GoString := b!"InvalidErrorFromReceiver"
def s15 : GoString := b!"InvalidErrorFromGlobal"
def s16 : GoString := b!"globalError"
def s17 : GoString := b!"getLambda"
def s18 : GoString := b!"InvalidErrorFromLambda"
def s19 : GoString := b!"SliceAccess"
def s20 : GoString := b!"errors"
def s21 : GoString := b!"index"
def s22 : GoString := b!"main"
def s23 : GoString := b!"One"
def s24 : GoString := b!"Two"
def s25 : GoString := b!"Three"
def s26 : GoString := b!"Four"
def s27 : GoString := b!"Five"
def s28 : GoString := b!"Six"
def s29 : GoString := b!"err"
def s30 : GoString := b!"flip"
def s31 : GoString := b!"Seven"
def s32 : GoString := b!"uff"
def s33 : GoString := b!"TheCode"
def s34 : GoString := b!"Eight"
def s35 : GoString := b!"fmt"
def s36 : GoString := b!"Errorf"
def s37 : GoString := b!"Named"
def s38 : GoString := b!"something"
def s39 : GoString := b!"Shadowed"
def s40 : GoString := b!"IdentLoop"
def s41 : GoString := b!"err1"
def s42 : GoString := b!"err2"
def s43 : GoString := b!"err3"
def s44 : GoString := b!"PointerOfLocal"
def s45 : GoString := b!"FetchFromUrl"
def s46 : GoString := b!"failed"
def s47 : GoString := b!"nil"
def s48 : GoString := b!"url"
def s49 : GoString := b!"ConsumingIoImplementations"
def s50 : GoString := b!"io1"
def s51 : GoString := b!"io2"
def s52 : GoString := b!"DefinitionWithoutAssignment"
def s53 : GoString := b!"Code"
def s54 : GoString := b!"Message"
def s55 : GoString := b!"Details"
def s56 : GoString := b!"Cause"
def s57 : GoString := b!"UnusedCode"
def s58 : GoString := b!"MissingCode"
def s59 : GoString := b!"MissingAndUnusedCode"
def s60 : GoString := b!"MultipleMismatchedCodes"
def s61 : GoString := b!"some-error"
def s62 : GoString := b!"hello-error"
def s63 : GoString := b!"zonk-error"
def s64 : GoString := b!"InvalidError"
def s65 : GoString := b!"5-invalid-error"
def s66 : GoString := b!"-invalid-error"
def s67 : GoString := b!"invalid-error-"
def s68 : GoString := b!"invalid-(chars)-error"
def s69 : GoString := b!"invalid error"
def s70 : GoString := b!"global-error"
def s71 : GoString := b!"lambda-error"
def s72 : GoString := b!"hello-error-literal"
def s73 : GoString := b!"not a nice structural error"
def s74 : GoString := b!"value"
def s75 : GoString := b!"named-error"
def s76 : GoString := b!"some value"
def s77 : GoString := b!"value-error"
def s78 : GoString := b!"io-error"
def s79 : GoString := b!"var-error"
def s80 : GoString := b!"missing-error"
def s81 : GoString := b!"missing-error-ab"
def s82 : GoString := b!"missing-error-a"
def s83 : GoString := b!"missing-error-cc"
def s84 : GoString := b!"// want `function \"CodeNotDeclared\" is exported, but does not declare any error codes`"
def s85 : GoString := b!"// want \"error should be returned as the last argument\""
def s86 : GoString := b!"// want \"expression does not define an error code\""
def s87 : GoString := b!"// want InvalidErrorCodeFormat:\"ErrorCodes: hello-error\""
def s88 : GoString := b!"// want \"invalid error source: definition of the unnamed function could not be found\""
def s89 : GoString := b!"// want SliceAccess:\"ErrorCodes:\""
def s90 : GoString := b!"// want \"expression is not supported in error code analysis\""
def s91 : GoString := b!"// want One:\"ErrorCodes: hello-error\""
def s92 : GoString := b!"// want Two:\"ErrorCodes: hello-error\""
def s93 : GoString := b!"// want `function \"Three\" is exported, but does not declare any error codes`"
def s94 : GoString := b!"// want Four:\"ErrorCodes: zonk-error\""
def s95 : GoString := b!"// want Five:\"ErrorCodes: zonk-error\""
def s96 : GoString := b!"// want Eight:\"ErrorCodes: hello-error\" `function \"Eight\" has a mismatch of declared and actual error codes: unused codes: \\[hello-error]`"
def s97 : GoString := b!"// want `function \"Errorf\" in package \"fmt\" does not declare error codes`"
def s98 : GoString := b!"// want FetchFromUrl:\"ErrorCodes:\""
def s99 : GoString := b!"// this is only a mock and does not return errors"
def s100 : GoString := b!"/*\n\t\twant\n\t\t\tUnusedCode:\"ErrorCodes: unused-error\"\n\t\t\t`function \"UnusedCode\" has a mismatch of declared and actual error codes: unused codes: \\[unused-error]` */"
def s101 : GoString := b!"/*\n\t\twant\n\t\t\tMissingAndUnusedCode:\"ErrorCodes: unused-error\"\n\t\t\t`function \"MissingAndUnusedCode\" has a mismatch of declared and actual error codes: missing codes: \\[missing-error] unused codes: \\[unused-error]` */"
def s102 : GoString := b!"// CallToInvalidFunction calls a function which has an error as non-last return argument."
def s103 : GoString := b!"//"
def s104 : GoString := b!"// Errors:"
def s105 : GoString := b!"//    - zonk-error -- is always returned"
def s106 : GoString := b!"// ReturnInvalidError returns an error that does not define a Code() method."
def s107 : GoString := b!"//    - hello-error -- might be returned by this function"
def s108 : GoString := b!"// InvalidErrorCodeFormat returns an error with invalid error code."
def s109 : GoString := b!"//    - hello-error -- might be returned"
def s110 : GoString := b!"//    - some-error --"
def s111 : GoString := b!"// Errors: none"
def s112 : GoString := b!"/*\n\tOne is a demo function.\n\tIt calls another function that returns an error.\n\n\tErrors:\n\n\t\t- hello-error -- always returned.\n*/"
def s113 : GoString := b!"// Two is a demo function."
def s114 : GoString := b!"// It returns an error value it creates itself."
def s115 : GoString := b!"//    - hello-error -- is always returned."
def s116 : GoString := b!"// Four is a demo function with multiple returns."
def s117 : GoString := b!"//    - zonk-error -- is always returned."
def s118 : GoString := b!"// Five is a demo function with multiple returns"
def s119 : GoString := b!"// which is returning the result of another function"
def s120 : GoString := b!"// (which *also* has multiple returns)."
def s121 : GoString := b!"//    - hello-error -- is sometimes returned."
def s122 : GoString := b!"//    - zonk-error -- is returned at other times."
def s123 : GoString := b!"// Seven is ... probably out of scope."
def s124 : GoString := b!"// Eight isn't going to fulfill what it says it will do."
def s125 : GoString := b!"// It also makes a call to another package."
def s126 : GoString := b!"//    - hello-error -- is a lie, won't actually happen."
def s127 : GoString := b!"// Named returns an error by named return arguments."
def s128 : GoString := b!"//    - named-error -- is always returned"
def s129 : GoString := b!"// Shadowed returns an error by named return arguments."
def s130 : GoString := b!"// IdentLoop does assignments in an attempt to make the analysis fall into an endless loop."
def s131 : GoString := b!"//    - some-error -- is always returned"
def s132 : GoString := b!"// PointerOfLocal returns a pointer to a locally created error."
def s133 : GoString := b!"//    - value-error -- is always returned"
def s134 : GoString := b!"//    - io-error -- returned if transfer fails"
def s135 : GoString := b!"// Errors: none -- this method only returns error to comply with the IO interface."
def s136 : GoString := b!"//    - var-error --"
def s137 : GoString := b!"// UnusedCode declares an error which is never returned."
def s138 : GoString := b!"//    - unused-error -- never returned"
def s139 : GoString := b!"// MissingCode returns an error which is not declared."
def s140 : GoString := b!"//    - hello-error -- error that might be returned"
def s141 : GoString := b!"// MissingAndUnusedCode returns an error which is not declared,"
def s142 : GoString := b!"// and declares an error which is never returned."
def s143 : GoString := b!"// MultipleMismatchedCodes has multiple error code mismatches."
def s144 : GoString := b!"//    - hello-error     -- error that might be returned"
def s145 : GoString := b!"//    - unused-error-ab -- never returned"
def s146 : GoString := b!"//    - unused-error-aa -- never returned"
def s147 : GoString := b!"Io"
def s148 : GoString := b!"string"
def s149 : GoString := b!"error"
def s150 : GoString := b!"IoImpl"
def s151 : GoString := b!"IoMock"
/-- invalid.go:3: `func CodeNotDeclared` -/
def f0 : FuncDef := ⟨48, some ⟨36, s0, (some 0)⟩, ⟨[], (some [⟨[], 38⟩]), 37⟩, some [.ret 46 [.unary 45 true (.compositeLit 44 [.basicLit 43])]],
  43, 162⟩
/-- invalid.go:7: `func ErrorNotLast` -/
def f1 : FuncDef := ⟨64, some ⟨49, s1, (some 1)⟩, ⟨[], (some [⟨[], 51⟩, ⟨[], 52⟩]), 184⟩, some [.ret 62 [.unary 60 true (.compositeLit 59 [.basicLit
  58]), .basicLit 61]], 197, 289⟩
/-- invalid.go:16: `func CallToInvalidFunction` -/
def f2 : FuncDef := ⟨88, some ⟨65, s2, (some 2)⟩, ⟨[], (some [⟨[], 67⟩]), 468⟩, some [.assign 75 [.ident ⟨71, s3, (some 3)⟩, .ident ⟨72, s4, (some
  4)⟩] [.call 74 (.ident ⟨73, s1, (some 1)⟩) []], .other 81 [.ident ⟨76, s5, none⟩, .other 80 [.ret 79 [.ident ⟨78, s3, (some 3)⟩]]], .ret 86
  [.unary 85 true (.compositeLit 84 [.basicLit 83])]], 474, 712⟩
/-- invalid.go:29: `func ReturnInvalidError` -/
def f3 : FuncDef := ⟨109, some ⟨89, s6, (some 5)⟩, ⟨[], (some [⟨[], 91⟩]), 892⟩, some [.other 103 [.ident ⟨95, s5, none⟩, .other 102 [.ret 101
  [.unary 100 true (.compositeLit 99 [.basicLit 98])]]], .ret 107 [.unary 106 true (.compositeLit 105 [])]], 898, 1075⟩
/-- invalid.go:38: `func Error` -/
def f4 : FuncDef := ⟨129, some ⟨120, s7, none⟩, ⟨[], (some [⟨[], 122⟩]), 1136⟩, some [.ret 127 [.basicLit 126]], 1143, 1168⟩
/-- invalid.go:45: `func InvalidErrorCodeFormat` -/
def f5 : FuncDef := ⟨140, some ⟨130, s8, (some 8)⟩, ⟨[], (some [⟨[], 132⟩]), 1326⟩, some [.ret 138 [.call 137 (.ident ⟨136, s9, (some 9)⟩) []]],
  1332, 1425⟩
/-- invalid.go:49: `func invalidErrorCodeFormat` -/
def f6 : FuncDef := ⟨191, some ⟨141, s9, (some 9)⟩, ⟨[], (some [⟨[], 143⟩]), 1457⟩, some [.other 189 [.other 188 [.caseClause 153 [.ident ⟨147, s10,
  none⟩] [.ret 152 [.unary 151 true (.compositeLit 150 [.basicLit 149])]], .caseClause 160 [.ident ⟨154, s10, none⟩] [.ret 159 [.unary 158 true
  (.compositeLit 157 [.basicLit 156])]], .caseClause 167 [.ident ⟨161, s10, none⟩] [.ret 166 [.unary 165 true (.compositeLit 164 [.basicLit 163])]],
  .caseClause 174 [.ident ⟨168, s10, none⟩] [.ret 173 [.unary 172 true (.compositeLit 171 [.basicLit 170])]], .caseClause 181 [.ident ⟨175, s10,
  none⟩] [.ret 180 [.unary 179 true (.compositeLit 178 [.basicLit 177])]], .caseClause 187 [] [.ret 186 [.unary 185 true (.compositeLit 184
  [.basicLit 183])]]]]], 1463, 2051⟩
/-- invalid.go:69: `func InvalidErrorFromParameter` -/
def f7 : FuncDef := ⟨220, some ⟨192, s11, (some 10)⟩, ⟨[⟨[⟨193, s12, (some 11)⟩], 194⟩], (some [⟨[], 197⟩]), 2129⟩, some [.other 213 [.other 212
  [.caseClause 204 [.ident ⟨201, s10, none⟩] [.ret 203 [.ident ⟨202, s12, (some 11)⟩]], .caseClause 211 [.ident ⟨205, s10, none⟩] [.assign 208
  [.ident ⟨206, s13, (some 12)⟩] [.ident ⟨207, s12, (some 11)⟩], .ret 210 [.ident ⟨209, s13, (some 12)⟩]]]], .ret 218 [.unary 217 true
  (.compositeLit 216 [.basicLit 215])]], 2135, 2448⟩
/-- invalid.go:83: `func InvalidErrorFromReceiver` -/
def f8 : FuncDef := ⟨251, some ⟨226, s14, none⟩, ⟨[], (some [⟨[], 228⟩]), 2529⟩, some [.other 244 [.other 243 [.caseClause 235 [.ident ⟨232, s10,
  none⟩] [.ret 234 [.ident ⟨233, s3, (some 13)⟩]], .caseClause 242 [.ident ⟨236, s10, none⟩] [.assign 239 [.ident ⟨237, s13, (some 14)⟩] [.ident
  ⟨238, s3, (some 13)⟩], .ret 241 [.ident ⟨240, s13, (some 14)⟩]]]], .ret 249 [.unary 248 true (.compositeLit 247 [.basicLit 246])]], 2535, 2847⟩
/-- invalid.go:99: `func InvalidErrorFromGlobal` -/
def f9 : FuncDef := ⟨284, some ⟨259, s15, (some 16)⟩, ⟨[], (some [⟨[], 261⟩]), 2957⟩, some [.other 277 [.other 276 [.caseClause 268 [.ident ⟨265,
  s10, none⟩] [.ret 267 [.ident ⟨266, s16, (some 15)⟩]], .caseClause 275 [.ident ⟨269, s10, none⟩] [.assign 272 [.ident ⟨270, s13, (some 17)⟩]
  [.ident ⟨271, s16, (some 15)⟩], .ret 274 [.ident ⟨273, s13, (some 17)⟩]]]], .ret 282 [.unary 281 true (.compositeLit 280 [.basicLit 279])]], 2963,
  3293⟩
/-- invalid.go:110: `func getLambda` -/
def f10 : FuncDef := ⟨309, some ⟨285, s17, (some 18)⟩, ⟨[], (some [⟨[], 291⟩]), 3312⟩, some [.ret 307 [.funcLit 306 11 ⟨[], (some [⟨[], 296⟩]),
  3342⟩ [.ret 304 [.unary 303 true (.compositeLit 302 [.basicLit 301])]]]], 3325, 3386⟩
/-- invalid.go:111: a function literal -/
def f11 : FuncDef := ⟨306, none, ⟨[], (some [⟨[], 296⟩]), 3342⟩, some [.ret 304 [.unary 303 true (.compositeLit 302 [.basicLit 301])]], 3348, 3384⟩
/-- invalid.go:119: `func InvalidErrorFromLambda` -/
def f12 : FuncDef := ⟨330, some ⟨310, s18, (some 19)⟩, ⟨[], (some [⟨[], 312⟩]), 3454⟩, some [.other 323 [.ident ⟨316, s5, none⟩, .other 322 [.ret
  321 [.call 320 (.call 319 (.ident ⟨318, s17, (some 18)⟩) []) []]]], .ret 328 [.unary 327 true (.compositeLit 326 [.basicLit 325])]], 3460, 3672⟩
/-- invalid.go:127: `func SliceAccess` -/
def f13 : FuncDef := ⟨349, some ⟨331, s19, (some 20)⟩, ⟨[⟨[⟨332, s20, (some 21)⟩], 334⟩, ⟨[⟨335, s21, (some 22)⟩], 336⟩], (some [⟨[], 340⟩]), 3734⟩,
  some [.ret 347 [.index 346 (.ident ⟨344, s20, (some 21)⟩) (.ident ⟨345, s21, (some 22)⟩)]], 3740, 3860⟩
/-- main.go:7: `func main` -/
def f14 : FuncDef := ⟨400, some ⟨393, s22, (some 23)⟩, ⟨[], none, 0⟩, some [.other 398 [.call 397 (.ident ⟨396, s23, (some 24)⟩) []]], 3916, 3926⟩
/-- main.go:19: `func One` -/
def f15 : FuncDef := ⟨411, some ⟨401, s23, (some 24)⟩, ⟨[], (some [⟨[], 403⟩]), 4067⟩, some [.ret 409 [.call 408 (.ident ⟨407, s24, (some 25)⟩)
  []]], 4073, 4128⟩
/-- main.go:29: `func Two` -/
def f16 : FuncDef := ⟨424, some ⟨412, s24, (some 25)⟩, ⟨[], (some [⟨[], 414⟩]), 4276⟩, some [.ret 422 [.unary 421 true (.compositeLit 420 [.basicLit
  419])]], 4282, 4353⟩
/-- main.go:33: `func Three` -/
def f17 : FuncDef := ⟨438, some ⟨425, s25, (some 27)⟩, ⟨[], (some [⟨[], 428⟩]), 4368⟩, some [.ret 436 [.unary 435 true (.compositeLit 434 [.basicLit
  433])]], 4375, 4493⟩
/-- main.go:42: `func Four` -/
def f18 : FuncDef := ⟨454, some ⟨439, s26, (some 28)⟩, ⟨[], (some [⟨[], 441⟩, ⟨[], 442⟩]), 4616⟩, some [.ret 452 [.basicLit 447, .unary 451 true
  (.compositeLit 450 [.basicLit 449])]], 4632, 4715⟩
/-- main.go:53: `func Five` -/
def f19 : FuncDef := ⟨468, some ⟨455, s27, (some 29)⟩, ⟨[], (some [⟨[], 458⟩, ⟨[], 459⟩]), 4930⟩, some [.ret 466 [.call 465 (.ident ⟨464, s26, (some
  28)⟩) []]], 4951, 5007⟩
/-- main.go:65: `func Six` -/
def f20 : FuncDef := ⟨495, some ⟨469, s28, (some 30)⟩, ⟨[⟨[⟨470, s30, (some 31)⟩], 471⟩], (some [⟨[], 474⟩]), 5284⟩, some [.assign 482 [.ident ⟨478,
  s29, (some 32)⟩] [.call 481 (.paren 480 (.ident ⟨479, s24, (some 25)⟩)) []], .other 491 [.ident ⟨483, s30, (some 31)⟩, .other 490 [.assign 489
  [.ident ⟨485, s4, none⟩, .ident ⟨486, s29, (some 32)⟩] [.call 488 (.ident ⟨487, s26, (some 28)⟩) []]]], .ret 493 [.ident ⟨492, s29, (some 32)⟩]],
  5290, 5402⟩
/-- main.go:78: `func Seven` -/
def f21 : FuncDef := ⟨523, some ⟨496, s31, (some 33)⟩, ⟨[], (some [⟨[], 498⟩]), 5516⟩, some [.assign 506 [.ident ⟨502, s32, (some 34)⟩] [.unary 505
  true (.compositeLit 504 [])], .assign 511 [.selector 509 (.ident ⟨507, s32, (some 34)⟩) ⟨508, s33, none⟩] [.basicLit 510], .other 516 [.other 515
  [.valueSpec 514 [⟨512, s29, (some 35)⟩] (some 513) []]], .assign 519 [.ident ⟨517, s29, (some 35)⟩] [.ident ⟨518, s32, (some 34)⟩], .ret 521
  [.ident ⟨520, s29, (some 35)⟩]], 5522, 5713⟩
/-- main.go:92: `func Eight` -/
def f22 : FuncDef := ⟨537, some ⟨524, s34, (some 36)⟩, ⟨[], (some [⟨[], 526⟩]), 5902⟩, some [.ret 535 [.call 534 (.selector 532 (.ident ⟨530, s35,
  none⟩) ⟨531, s36, none⟩) [.basicLit 533]]], 5908, 6174⟩
/-- main.go:101: `func Named` -/
def f23 : FuncDef := ⟨559, some ⟨538, s37, (some 37)⟩, ⟨[], (some [⟨[⟨540, s38, (some 38)⟩], 541⟩, ⟨[⟨542, s29, (some 39)⟩], 543⟩]), 6301⟩, some
  [.assign 550 [.ident ⟨548, s38, (some 38)⟩] [.basicLit 549], .assign 556 [.ident ⟨551, s29, (some 39)⟩] [.unary 555 true (.compositeLit 554
  [.basicLit 553])], .ret 557 []], 6331, 6432⟩
/-- main.go:112: `func Shadowed` -/
def f24 : FuncDef := ⟨587, some ⟨560, s39, (some 40)⟩, ⟨[], (some [⟨[⟨562, s29, (some 41)⟩], 563⟩]), 6565⟩, some [.assign 572 [.ident ⟨567, s29,
  (some 41)⟩] [.unary 571 true (.compositeLit 570 [.basicLit 569])], .other 584 [.other 577 [.other 576 [.valueSpec 575 [⟨573, s29, (some 42)⟩]
  (some 574) []]], .assign 580 [.ident ⟨578, s29, (some 42)⟩] [.basicLit 579], .assign 583 [.ident ⟨581, s4, none⟩] [.ident ⟨582, s29, (some 42)⟩]],
  .ret 585 []], 6577, 6726⟩
/-- main.go:127: `func IdentLoop` -/
def f25 : FuncDef := ⟨612, some ⟨588, s40, (some 43)⟩, ⟨[], (some [⟨[], 590⟩]), 6895⟩, some [.assign 599 [.ident ⟨594, s41, (some 44)⟩] [.unary 598
  true (.compositeLit 597 [.basicLit 596])], .assign 602 [.ident ⟨600, s42, (some 45)⟩] [.ident ⟨601, s41, (some 44)⟩], .assign 605 [.ident ⟨603,
  s43, (some 46)⟩] [.ident ⟨604, s42, (some 45)⟩], .assign 608 [.ident ⟨606, s41, (some 44)⟩] [.ident ⟨607, s43, (some 46)⟩], .ret 610 [.ident ⟨609,
  s41, (some 44)⟩]], 6901, 7031⟩
/-- main.go:140: `func PointerOfLocal` -/
def f26 : FuncDef := ⟨638, some ⟨613, s44, (some 47)⟩, ⟨[], (some [⟨[], 615⟩]), 7178⟩, some [.assign 623 [.ident ⟨619, s29, (some 48)⟩]
  [.compositeLit 622 [.basicLit 621]], .other 633 [.ident ⟨624, s5, none⟩, .other 632 [.assign 629 [.ident ⟨626, s42, (some 49)⟩] [.unary 628 true
  (.ident ⟨627, s29, (some 48)⟩)], .ret 631 [.ident ⟨630, s42, (some 49)⟩]]], .ret 636 [.unary 635 true (.ident ⟨634, s29, (some 48)⟩)]], 7184,
  7322⟩
/-- main.go:161: `func FetchFromUrl` -/
def f27 : FuncDef := ⟨686, some ⟨662, s45, none⟩, ⟨[⟨[⟨663, s48, (some 54)⟩], 664⟩], (some [⟨[], 667⟩]), 7651⟩, some [.assign 673 [.ident ⟨671, s46,
  (some 55)⟩] [.ident ⟨672, s5, none⟩], .other 682 [.ident ⟨674, s46, (some 55)⟩, .other 681 [.ret 680 [.unary 679 true (.compositeLit 678
  [.basicLit 677])]]], .ret 684 [.ident ⟨683, s47, none⟩]], 7657, 7808⟩
/-- main.go:173: `func FetchFromUrl` -/
def f28 : FuncDef := ⟨707, some ⟨695, s45, none⟩, ⟨[⟨[⟨696, s48, (some 57)⟩], 697⟩], (some [⟨[], 700⟩]), 7954⟩, some [.ret 705 [.ident ⟨704, s47,
  none⟩]], 7960, 8061⟩
/-- main.go:178: `func ConsumingIoImplementations` -/
def f29 : FuncDef := ⟨731, some ⟨708, s49, (some 58)⟩, ⟨[], none, 0⟩, some [.other 717 [.other 716 [.valueSpec 715 [⟨711, s50, (some 59)⟩] (some
  712) [.compositeLit 714 []]]], .other 724 [.other 723 [.valueSpec 722 [⟨718, s51, (some 60)⟩] (some 719) [.compositeLit 721 []]]], .assign 729
  [.ident ⟨725, s4, none⟩, .ident ⟨726, s4, none⟩] [.ident ⟨727, s50, (some 59)⟩, .ident ⟨728, s51, (some 60)⟩]], 8097, 8163⟩
/-- main.go:187: `func DefinitionWithoutAssignment` -/
def f30 : FuncDef := ⟨750, some ⟨732, s52, (some 61)⟩, ⟨[], (some [⟨[], 734⟩]), 8235⟩, some [.other 746 [.other 745 [.valueSpec 744 [⟨738, s29,
  (some 62)⟩] (some 739) [.unary 743 true (.compositeLit 742 [.basicLit 741])]]], .ret 748 [.ident ⟨747, s29, (some 62)⟩]], 8241, 8353⟩
/-- main.go:196: `func Code` -/
def f31 : FuncDef := ⟨775, some ⟨764, s53, none⟩, ⟨[], (some [⟨[], 766⟩]), 8487⟩, some [.ret 773 [.selector 772 (.ident ⟨770, s3, (some 64)⟩) ⟨771,
  s33, none⟩]], 8508, 8528⟩
/-- main.go:197: `func Message` -/
def f32 : FuncDef := ⟨792, some ⟨781, s54, none⟩, ⟨[], (some [⟨[], 783⟩]), 8555⟩, some [.ret 790 [.selector 789 (.ident ⟨787, s3, (some 65)⟩) ⟨788,
  s33, none⟩]], 8573, 8593⟩
/-- main.go:198: `func Details` -/
def f33 : FuncDef := ⟨809, some ⟨798, s55, none⟩, ⟨[], (some [⟨[], 802⟩]), 8620⟩, some [.ret 807 [.ident ⟨806, s47, none⟩]], 8638, 8652⟩
/-- main.go:199: `func Cause` -/
def f34 : FuncDef := ⟨824, some ⟨815, s56, none⟩, ⟨[], (some [⟨[], 817⟩]), 8677⟩, some [.ret 822 [.ident ⟨821, s47, none⟩]], 8697, 8711⟩
/-- main.go:200: `func Error` -/
def f35 : FuncDef := ⟨842, some ⟨830, s7, none⟩, ⟨[], (some [⟨[], 832⟩]), 8736⟩, some [.ret 840 [.call 839 (.selector 838 (.ident ⟨836, s3, (some
  68)⟩) ⟨837, s54, none⟩) []]], 8756, 8778⟩
/-- mismatch.go:8: `func UnusedCode` -/
def f36 : FuncDef := ⟨862, some ⟨853, s57, (some 69)⟩, ⟨[], (some [⟨[], 855⟩]), 8934⟩, some [.ret 860 [.ident ⟨859, s47, none⟩]], 8940, 9117⟩
/-- mismatch.go:20: `func MissingCode` -/
def f37 : FuncDef := ⟨884, some ⟨863, s58, (some 70)⟩, ⟨[], (some [⟨[], 865⟩]), 9262⟩, some [.other 877 [.ident ⟨869, s5, none⟩, .other 876 [.ret
  875 [.unary 874 true (.compositeLit 873 [.basicLit 872])]]], .ret 882 [.unary 881 true (.compositeLit 880 [.basicLit 879])]], 9268, 9514⟩
/-- mismatch.go:36: `func MissingAndUnusedCode` -/
def f38 : FuncDef := ⟨897, some ⟨885, s59, (some 71)⟩, ⟨[], (some [⟨[], 887⟩]), 9714⟩, some [.ret 895 [.unary 894 true (.compositeLit 893 [.basicLit
  892])]], 9720, 9969⟩
/-- mismatch.go:50: `func MultipleMismatchedCodes` -/
def f39 : FuncDef := ⟨934, some ⟨898, s60, (some 72)⟩, ⟨[], (some [⟨[], 900⟩]), 10222⟩, some [.other 932 [.other 931 [.caseClause 910 [.ident ⟨904,
  s10, none⟩] [.ret 909 [.unary 908 true (.compositeLit 907 [.basicLit 906])]], .caseClause 917 [.ident ⟨911, s10, none⟩] [.ret 916 [.unary 915 true
  (.compositeLit 914 [.basicLit 913])]], .caseClause 924 [.ident ⟨918, s10, none⟩] [.ret 923 [.unary 922 true (.compositeLit 921 [.basicLit 920])]],
  .caseClause 930 [] [.ret 929 [.unary 928 true (.compositeLit 927 [.basicLit 926])]]]]], 10228, 10734⟩
/-- The objects of go/ast, in the order of their numbers. -/
def objects : List ObjInfo := [
  ⟨.fun_, 19, (.funcDecl 0)⟩,
  ⟨.fun_, 169, (.funcDecl 1)⟩,
  ⟨.fun_, 444, (.funcDecl 2)⟩,
  ⟨.var, 532, .other⟩,
  ⟨.var, 535, .other⟩,
  ⟨.fun_, 871, (.funcDecl 3)⟩,
  ⟨.typ, 1082, .typeSpec⟩,
  ⟨.var, 1111, .other⟩,
  ⟨.fun_, 1301, (.funcDecl 5)⟩,
  ⟨.fun_, 1432, (.funcDecl 6)⟩,
  ⟨.fun_, 2094, (.funcDecl 7)⟩,
  ⟨.var, 2120, .other⟩,
  ⟨.var, 2320, .other⟩,
  ⟨.var, 2492, .other⟩,
  ⟨.var, 2719, .other⟩,
  ⟨.var, 2853, (.valueSpec [⟨252, s16, (some 15)⟩] [.unary 256 true (.compositeLit 255 [.basicLit 254])])⟩,
  ⟨.fun_, 2932, (.funcDecl 9)⟩,
  ⟨.var, 3155, .other⟩,
  ⟨.fun_, 3300, (.funcDecl 10)⟩,
  ⟨.fun_, 3429, (.funcDecl 12)⟩,
  ⟨.fun_, 3695, (.funcDecl 13)⟩,
  ⟨.var, 3707, .other⟩,
  ⟨.var, 3723, .other⟩,
  ⟨.fun_, 3909, (.funcDecl 14)⟩,
  ⟨.fun_, 4061, (.funcDecl 15)⟩,
  ⟨.fun_, 4270, (.funcDecl 16)⟩,
  ⟨.typ, 8360, .typeSpec⟩,
  ⟨.fun_, 4360, (.funcDecl 17)⟩,
  ⟨.fun_, 4609, (.funcDecl 18)⟩,
  ⟨.fun_, 4923, (.funcDecl 19)⟩,
  ⟨.fun_, 5269, (.funcDecl 20)⟩,
  ⟨.var, 5273, .other⟩,
  ⟨.var, 5342, .other⟩,
  ⟨.fun_, 5508, (.funcDecl 21)⟩,
  ⟨.var, 5565, .other⟩,
  ⟨.var, 5679, (.valueSpec [⟨512, s29, (some 35)⟩] [])⟩,
  ⟨.fun_, 5894, (.funcDecl 22)⟩,
  ⟨.fun_, 6293, (.funcDecl 23)⟩,
  ⟨.var, 6302, .other⟩,
  ⟨.var, 6320, .other⟩,
  ⟨.fun_, 6554, (.funcDecl 24)⟩,
  ⟨.var, 6566, .other⟩,
  ⟨.var, 6660, (.valueSpec [⟨573, s29, (some 42)⟩] [])⟩,
  ⟨.fun_, 6883, (.funcDecl 25)⟩,
  ⟨.var, 6947, .other⟩,
  ⟨.var, 6977, .other⟩,
  ⟨.var, 6991, .other⟩,
  ⟨.fun_, 7161, (.funcDecl 26)⟩,
  ⟨.var, 7236, .other⟩,
  ⟨.var, 7278, .other⟩,
  ⟨.typ, 7329, .typeSpec⟩,
  ⟨.fun_, 7451, .other⟩,
  ⟨.var, 7464, .other⟩,
  ⟨.typ, 7534, .typeSpec⟩,
  ⟨.var, 7639, .other⟩,
  ⟨.var, 7704, .other⟩,
  ⟨.typ, 7815, .typeSpec⟩,
  ⟨.var, 7942, .other⟩,
  ⟨.fun_, 8068, (.funcDecl 29)⟩,
  ⟨.var, 8104, (.valueSpec [⟨711, s50, (some 59)⟩] [.compositeLit 714 []])⟩,
  ⟨.var, 8127, (.valueSpec [⟨718, s51, (some 60)⟩] [.compositeLit 721 []])⟩,
  ⟨.fun_, 8205, (.funcDecl 30)⟩,
  ⟨.var, 8308, (.valueSpec [⟨738, s29, (some 62)⟩] [.unary 743 true (.compositeLit 742 [.basicLit 741])])⟩,
  ⟨.var, 8446, .other⟩,
  ⟨.var, 8470, .other⟩,
  ⟨.var, 8535, .other⟩,
  ⟨.var, 8600, .other⟩,
  ⟨.var, 8659, .other⟩,
  ⟨.var, 8718, .other⟩,
  ⟨.fun_, 8921, (.funcDecl 36)⟩,
  ⟨.fun_, 9248, (.funcDecl 37)⟩,
  ⟨.fun_, 9691, (.funcDecl 38)⟩,
  ⟨.fun_, 10196, (.funcDecl 39)⟩]
/-- Types of expressions (`Info.Types`, `Info.Defs`, `Info.Uses`). -/
def typeTable : Tree GoType := (.node (.node (.node (.node (.node (.node (.node (.node (.node Tree.nil 36 (.signature 6) Tree.nil) 38 (.named 19)
  (.node Tree.nil 41 (.signature 6) Tree.nil)) 42 (.named 80) (.node (.node Tree.nil 43 (.string) Tree.nil) 44 (.named 80) Tree.nil)) 45 (.pointer
  (.named 80)) (.node (.node (.node Tree.nil 49 (.signature 7) Tree.nil) 51 (.named 19) (.node Tree.nil 52 (.other 8) Tree.nil)) 56 (.signature 7)
  (.node (.node Tree.nil 57 (.named 80) Tree.nil) 58 (.string) Tree.nil))) 59 (.named 80) (.node (.node (.node (.node Tree.nil 60 (.pointer (.named
  80)) Tree.nil) 61 (.other 8) (.node Tree.nil 65 (.signature 6) Tree.nil)) 67 (.named 19) (.node (.node Tree.nil 70 (.signature 6) Tree.nil) 71
  (.named 19) Tree.nil)) 72 (.other 8) (.node (.node (.node Tree.nil 73 (.signature 7) Tree.nil) 74 (.tuple 9) (.node Tree.nil 76 (.other 10)
  Tree.nil)) 78 (.named 19) (.node (.node Tree.nil 82 (.named 80) Tree.nil) 83 (.string) Tree.nil)))) 84 (.named 80) (.node (.node (.node (.node
  (.node Tree.nil 85 (.pointer (.named 80)) Tree.nil) 89 (.signature 6) (.node Tree.nil 91 (.named 19) Tree.nil)) 94 (.signature 6) (.node (.node
  Tree.nil 95 (.other 10) Tree.nil) 97 (.named 80) Tree.nil)) 98 (.string) (.node (.node (.node Tree.nil 99 (.named 80) Tree.nil) 100 (.pointer
  (.named 80)) (.node Tree.nil 104 (.named 49) Tree.nil)) 105 (.named 49) (.node (.node Tree.nil 106 (.pointer (.named 49)) Tree.nil) 110 (.named
  49) Tree.nil))) 112 (.struct 2) (.node (.node (.node (.node Tree.nil 115 (.pointer (.named 49)) Tree.nil) 116 (.named 49) (.node Tree.nil 117
  (.pointer (.named 49)) Tree.nil)) 120 (.signature 11) (.node (.node Tree.nil 122 (.string) Tree.nil) 125 (.signature 11) Tree.nil)) 126 (.string)
  (.node (.node (.node Tree.nil 130 (.signature 6) Tree.nil) 132 (.named 19) (.node Tree.nil 135 (.signature 6) Tree.nil)) 136 (.signature 6) (.node
  (.node Tree.nil 137 (.named 19) Tree.nil) 141 (.signature 6) Tree.nil))))) 143 (.named 19) (.node (.node (.node (.node (.node (.node Tree.nil 146
  (.signature 6) Tree.nil) 147 (.other 10) (.node Tree.nil 148 (.named 80) Tree.nil)) 149 (.string) (.node (.node Tree.nil 150 (.named 80) Tree.nil)
  151 (.pointer (.named 80)) Tree.nil)) 154 (.other 10) (.node (.node (.node Tree.nil 155 (.named 80) Tree.nil) 156 (.string) (.node Tree.nil 157
  (.named 80) Tree.nil)) 158 (.pointer (.named 80)) (.node (.node Tree.nil 161 (.other 10) Tree.nil) 162 (.named 80) Tree.nil))) 163 (.string)
  (.node (.node (.node (.node Tree.nil 164 (.named 80) Tree.nil) 165 (.pointer (.named 80)) (.node Tree.nil 168 (.other 10) Tree.nil)) 169 (.named
  80) (.node (.node Tree.nil 170 (.string) Tree.nil) 171 (.named 80) Tree.nil)) 172 (.pointer (.named 80)) (.node (.node (.node Tree.nil 175 (.other
  10) Tree.nil) 176 (.named 80) (.node Tree.nil 177 (.string) Tree.nil)) 178 (.named 80) (.node (.node Tree.nil 179 (.pointer (.named 80)) Tree.nil)
  182 (.named 80) Tree.nil)))) 183 (.string) (.node (.node (.node (.node (.node Tree.nil 184 (.named 80) Tree.nil) 185 (.pointer (.named 80)) (.node
  Tree.nil 192 (.signature 12) Tree.nil)) 193 (.named 19) (.node (.node Tree.nil 194 (.named 19) Tree.nil) 197 (.named 19) Tree.nil)) 200
  (.signature 12) (.node (.node (.node Tree.nil 201 (.other 10) Tree.nil) 202 (.named 19) (.node Tree.nil 205 (.other 10) Tree.nil)) 206 (.named 19)
  (.node (.node Tree.nil 207 (.named 19) Tree.nil) 209 (.named 19) Tree.nil))) 214 (.named 80) (.node (.node (.node (.node Tree.nil 215 (.string)
  Tree.nil) 216 (.named 80) (.node Tree.nil 217 (.pointer (.named 80)) Tree.nil)) 221 (.pointer (.named 80)) (.node (.node Tree.nil 222 (.named 80)
  Tree.nil) 223 (.pointer (.named 80)) Tree.nil)) 226 (.signature 6) (.node (.node (.node Tree.nil 228 (.named 19) Tree.nil) 231 (.signature 6)
  (.node Tree.nil 232 (.other 10) Tree.nil)) 233 (.pointer (.named 80)) (.node (.node Tree.nil 236 (.other 10) Tree.nil) 237 (.pointer (.named 80))
  Tree.nil)))))) 238 (.pointer (.named 80)) (.node (.node (.node (.node (.node (.node (.node Tree.nil 240 (.pointer (.named 80)) Tree.nil) 245
  (.named 80) (.node Tree.nil 246 (.string) Tree.nil)) 247 (.named 80) (.node (.node Tree.nil 248 (.pointer (.named 80)) Tree.nil) 252 (.pointer
  (.named 80)) Tree.nil)) 253 (.named 80) (.node (.node (.node Tree.nil 254 (.string) Tree.nil) 255 (.named 80) (.node Tree.nil 256 (.pointer
  (.named 80)) Tree.nil)) 259 (.signature 6) (.node (.node Tree.nil 261 (.named 19) Tree.nil) 264 (.signature 6) Tree.nil))) 265 (.other 10) (.node
  (.node (.node (.node Tree.nil 266 (.pointer (.named 80)) Tree.nil) 269 (.other 10) (.node Tree.nil 270 (.pointer (.named 80)) Tree.nil)) 271
  (.pointer (.named 80)) (.node (.node Tree.nil 273 (.pointer (.named 80)) Tree.nil) 278 (.named 80) Tree.nil)) 279 (.string) (.node (.node (.node
  Tree.nil 280 (.named 80) Tree.nil) 281 (.pointer (.named 80)) (.node Tree.nil 285 (.signature 13) Tree.nil)) 288 (.named 19) (.node (.node
  Tree.nil 291 (.signature 6) Tree.nil) 294 (.signature 13) Tree.nil)))) 296 (.named 19) (.node (.node (.node (.node (.node Tree.nil 299 (.signature
  6) Tree.nil) 300 (.named 80) (.node Tree.nil 301 (.string) Tree.nil)) 302 (.named 80) (.node (.node Tree.nil 303 (.pointer (.named 80)) Tree.nil)
  306 (.signature 6) Tree.nil)) 310 (.signature 6) (.node (.node (.node Tree.nil 312 (.named 19) Tree.nil) 315 (.signature 6) (.node Tree.nil 316
  (.other 10) Tree.nil)) 318 (.signature 13) (.node (.node Tree.nil 319 (.signature 6) Tree.nil) 320 (.named 19) Tree.nil))) 324 (.named 80) (.node
  (.node (.node (.node Tree.nil 325 (.string) Tree.nil) 326 (.named 80) (.node Tree.nil 327 (.pointer (.named 80)) Tree.nil)) 331 (.signature 14)
  (.node (.node Tree.nil 332 (.slice (.named 19)) Tree.nil) 333 (.named 19) Tree.nil)) 334 (.slice (.named 19)) (.node (.node (.node Tree.nil 335
  (.other 8) Tree.nil) 336 (.other 8) (.node Tree.nil 340 (.named 19) Tree.nil)) 343 (.signature 14) (.node (.node Tree.nil 344 (.slice (.named 19))
  Tree.nil) 345 (.other 8) Tree.nil))))) 346 (.named 19) (.node (.node (.node (.node (.node (.node Tree.nil 393 (.signature 15) Tree.nil) 395
  (.signature 15) (.node Tree.nil 396 (.signature 6) Tree.nil)) 397 (.named 19) (.node (.node Tree.nil 401 (.signature 6) Tree.nil) 403 (.named 19)
  Tree.nil)) 406 (.signature 6) (.node (.node (.node Tree.nil 407 (.signature 6) Tree.nil) 408 (.named 19) (.node Tree.nil 412 (.signature 6)
  Tree.nil)) 414 (.named 19) (.node (.node Tree.nil 417 (.signature 6) Tree.nil) 418 (.named 80) Tree.nil))) 419 (.string) (.node (.node (.node
  (.node Tree.nil 420 (.named 80) Tree.nil) 421 (.pointer (.named 80)) (.node Tree.nil 425 (.signature 16) Tree.nil)) 427 (.named 80) (.node (.node
  Tree.nil 428 (.pointer (.named 80)) Tree.nil) 431 (.signature 16) Tree.nil)) 432 (.named 80) (.node (.node (.node Tree.nil 433 (.string) Tree.nil)
  434 (.named 80) (.node Tree.nil 435 (.pointer (.named 80)) Tree.nil)) 439 (.signature 17) (.node (.node Tree.nil 441 (.string) Tree.nil) 442
  (.named 19) Tree.nil)))) 446 (.signature 17) (.node (.node (.node (.node (.node Tree.nil 447 (.string) Tree.nil) 448 (.named 80) (.node Tree.nil
  449 (.string) Tree.nil)) 450 (.named 80) (.node (.node Tree.nil 451 (.pointer (.named 80)) Tree.nil) 455 (.signature 18) Tree.nil)) 458
  (.interface 3) (.node (.node (.node Tree.nil 459 (.named 19) Tree.nil) 463 (.signature 18) (.node Tree.nil 464 (.signature 17) Tree.nil)) 465
  (.tuple 19) (.node (.node Tree.nil 469 (.signature 20) Tree.nil) 470 (.other 10) Tree.nil))) 471 (.other 10) (.node (.node (.node (.node Tree.nil
  474 (.named 19) Tree.nil) 477 (.signature 20) (.node Tree.nil 478 (.named 19) Tree.nil)) 479 (.signature 6) (.node (.node Tree.nil 480 (.signature
  6) Tree.nil) 481 (.named 19) Tree.nil)) 483 (.other 10) (.node (.node (.node Tree.nil 486 (.named 19) Tree.nil) 487 (.signature 17) (.node
  Tree.nil 488 (.tuple 19) Tree.nil)) 492 (.named 19) (.node (.node Tree.nil 496 (.signature 6) Tree.nil) 498 (.named 19) Tree.nil))))))) 501
  (.signature 6) (.node (.node (.node (.node (.node (.node (.node (.node Tree.nil 502 (.pointer (.named 80)) Tree.nil) 503 (.named 80) (.node
  Tree.nil 504 (.named 80) Tree.nil)) 505 (.pointer (.named 80)) (.node (.node Tree.nil 507 (.pointer (.named 80)) Tree.nil) 508 (.string)
  Tree.nil)) 509 (.string) (.node (.node (.node Tree.nil 510 (.string) Tree.nil) 512 (.named 19) (.node Tree.nil 513 (.named 19) Tree.nil)) 517
  (.named 19) (.node (.node Tree.nil 518 (.pointer (.named 80)) Tree.nil) 520 (.named 19) Tree.nil))) 524 (.signature 6) (.node (.node (.node (.node
  Tree.nil 526 (.named 19) Tree.nil) 529 (.signature 6) (.node Tree.nil 531 (.signature 21) Tree.nil)) 532 (.signature 21) (.node (.node Tree.nil
  533 (.string) Tree.nil) 534 (.named 19) Tree.nil)) 538 (.signature 17) (.node (.node (.node Tree.nil 540 (.string) Tree.nil) 541 (.string) (.node
  Tree.nil 542 (.named 19) Tree.nil)) 543 (.named 19) (.node (.node Tree.nil 547 (.signature 17) Tree.nil) 548 (.string) Tree.nil)))) 549 (.string)
  (.node (.node (.node (.node (.node Tree.nil 551 (.named 19) Tree.nil) 552 (.named 80) (.node Tree.nil 553 (.string) Tree.nil)) 554 (.named 80)
  (.node (.node Tree.nil 555 (.pointer (.named 80)) Tree.nil) 560 (.signature 6) Tree.nil)) 562 (.named 19) (.node (.node (.node Tree.nil 563
  (.named 19) Tree.nil) 566 (.signature 6) (.node Tree.nil 567 (.named 19) Tree.nil)) 568 (.named 80) (.node (.node Tree.nil 569 (.string) Tree.nil)
  570 (.named 80) Tree.nil))) 571 (.pointer (.named 80)) (.node (.node (.node (.node Tree.nil 573 (.string) Tree.nil) 574 (.string) (.node Tree.nil
  578 (.string) Tree.nil)) 579 (.string) (.node (.node Tree.nil 582 (.string) Tree.nil) 588 (.signature 6) Tree.nil)) 590 (.named 19) (.node (.node
  (.node Tree.nil 593 (.signature 6) Tree.nil) 594 (.pointer (.named 80)) (.node Tree.nil 595 (.named 80) Tree.nil)) 596 (.string) (.node (.node
  Tree.nil 597 (.named 80) Tree.nil) 598 (.pointer (.named 80)) Tree.nil))))) 600 (.pointer (.named 80)) (.node (.node (.node (.node (.node (.node
  Tree.nil 601 (.pointer (.named 80)) Tree.nil) 603 (.pointer (.named 80)) (.node Tree.nil 604 (.pointer (.named 80)) Tree.nil)) 606 (.pointer
  (.named 80)) (.node (.node Tree.nil 607 (.pointer (.named 80)) Tree.nil) 609 (.pointer (.named 80)) Tree.nil)) 613 (.signature 6) (.node (.node
  (.node Tree.nil 615 (.named 19) Tree.nil) 618 (.signature 6) (.node Tree.nil 619 (.named 80) Tree.nil)) 620 (.named 80) (.node (.node Tree.nil 621
  (.string) Tree.nil) 622 (.named 80) Tree.nil))) 624 (.other 10) (.node (.node (.node (.node Tree.nil 626 (.pointer (.named 80)) Tree.nil) 627
  (.named 80) (.node Tree.nil 628 (.pointer (.named 80)) Tree.nil)) 630 (.pointer (.named 80)) (.node (.node Tree.nil 634 (.named 80) Tree.nil) 635
  (.pointer (.named 80)) Tree.nil)) 639 (.named 73) (.node (.node (.node Tree.nil 640 (.signature 22) Tree.nil) 642 (.string) (.node Tree.nil 645
  (.named 19) Tree.nil)) 648 (.signature 22) (.node (.node Tree.nil 651 (.interface 4) Tree.nil) 654 (.named 74) Tree.nil)))) 656 (.struct 2) (.node
  (.node (.node (.node (.node Tree.nil 659 (.named 74) Tree.nil) 662 (.signature 22) (.node Tree.nil 663 (.string) Tree.nil)) 664 (.string) (.node
  (.node Tree.nil 667 (.named 19) Tree.nil) 670 (.signature 22) Tree.nil)) 671 (.other 10) (.node (.node (.node Tree.nil 672 (.other 10) Tree.nil)
  674 (.other 10) (.node Tree.nil 676 (.named 80) Tree.nil)) 677 (.string) (.node (.node Tree.nil 678 (.named 80) Tree.nil) 679 (.pointer (.named
  80)) Tree.nil))) 683 (.untypedNil) (.node (.node (.node (.node Tree.nil 687 (.named 76) Tree.nil) 689 (.struct 2) (.node Tree.nil 692 (.named 76)
  Tree.nil)) 695 (.signature 22) (.node (.node Tree.nil 696 (.string) Tree.nil) 697 (.string) Tree.nil)) 700 (.named 19) (.node (.node (.node
  Tree.nil 703 (.signature 22) Tree.nil) 704 (.untypedNil) (.node Tree.nil 708 (.signature 15) Tree.nil)) 710 (.signature 15) (.node (.node Tree.nil
  711 (.named 73) Tree.nil) 712 (.named 73) Tree.nil)))))) 713 (.named 74) (.node (.node (.node (.node (.node (.node (.node Tree.nil 714 (.named 74)
  Tree.nil) 718 (.named 73) (.node Tree.nil 719 (.named 73) Tree.nil)) 720 (.named 76) (.node (.node Tree.nil 721 (.named 76) Tree.nil) 727 (.named
  73) Tree.nil)) 728 (.named 73) (.node (.node (.node Tree.nil 732 (.signature 6) Tree.nil) 734 (.named 19) (.node Tree.nil 737 (.signature 6)
  Tree.nil)) 738 (.named 19) (.node (.node Tree.nil 739 (.named 19) Tree.nil) 740 (.named 80) Tree.nil))) 741 (.string) (.node (.node (.node (.node
  Tree.nil 742 (.named 80) Tree.nil) 743 (.pointer (.named 80)) (.node Tree.nil 747 (.named 19) Tree.nil)) 751 (.named 80) (.node (.node Tree.nil
  752 (.string) Tree.nil) 753 (.string) Tree.nil)) 756 (.struct 1) (.node (.node (.node Tree.nil 759 (.pointer (.named 80)) Tree.nil) 760 (.named
  80) (.node Tree.nil 761 (.pointer (.named 80)) Tree.nil)) 764 (.signature 11) (.node (.node Tree.nil 766 (.string) Tree.nil) 769 (.signature 11)
  Tree.nil)))) 770 (.pointer (.named 80)) (.node (.node (.node (.node (.node Tree.nil 771 (.string) Tree.nil) 772 (.string) (.node Tree.nil 776
  (.pointer (.named 80)) Tree.nil)) 777 (.named 80) (.node (.node Tree.nil 778 (.pointer (.named 80)) Tree.nil) 781 (.signature 11) Tree.nil)) 783
  (.string) (.node (.node (.node Tree.nil 786 (.signature 11) Tree.nil) 787 (.pointer (.named 80)) (.node Tree.nil 788 (.string) Tree.nil)) 789
  (.string) (.node (.node Tree.nil 793 (.pointer (.named 80)) Tree.nil) 794 (.named 80) Tree.nil))) 795 (.pointer (.named 80)) (.node (.node (.node
  (.node Tree.nil 798 (.signature 23) Tree.nil) 800 (.string) (.node Tree.nil 801 (.string) Tree.nil)) 802 (.map (.string) (.string)) (.node (.node
  Tree.nil 805 (.signature 23) Tree.nil) 806 (.untypedNil) Tree.nil)) 810 (.pointer (.named 80)) (.node (.node (.node Tree.nil 811 (.named 80)
  Tree.nil) 812 (.pointer (.named 80)) (.node Tree.nil 815 (.signature 6) Tree.nil)) 817 (.named 19) (.node (.node Tree.nil 820 (.signature 6)
  Tree.nil) 821 (.untypedNil) Tree.nil))))) 825 (.pointer (.named 80)) (.node (.node (.node (.node (.node (.node Tree.nil 826 (.named 80) Tree.nil)
  827 (.pointer (.named 80)) (.node Tree.nil 830 (.signature 11) Tree.nil)) 832 (.string) (.node (.node Tree.nil 835 (.signature 11) Tree.nil) 836
  (.pointer (.named 80)) Tree.nil)) 837 (.signature 11) (.node (.node (.node Tree.nil 838 (.signature 11) Tree.nil) 839 (.string) (.node Tree.nil
  853 (.signature 6) Tree.nil)) 855 (.named 19) (.node (.node Tree.nil 858 (.signature 6) Tree.nil) 859 (.untypedNil) Tree.nil))) 863 (.signature 6)
  (.node (.node (.node (.node Tree.nil 865 (.named 19) Tree.nil) 868 (.signature 6) (.node Tree.nil 869 (.other 10) Tree.nil)) 871 (.named 80)
  (.node (.node Tree.nil 872 (.string) Tree.nil) 873 (.named 80) Tree.nil)) 874 (.pointer (.named 80)) (.node (.node (.node Tree.nil 878 (.named 80)
  Tree.nil) 879 (.string) (.node Tree.nil 880 (.named 80) Tree.nil)) 881 (.pointer (.named 80)) (.node (.node Tree.nil 885 (.signature 6) Tree.nil)
  887 (.named 19) Tree.nil)))) 890 (.signature 6) (.node (.node (.node (.node (.node Tree.nil 891 (.named 80) Tree.nil) 892 (.string) (.node
  Tree.nil 893 (.named 80) Tree.nil)) 894 (.pointer (.named 80)) (.node (.node Tree.nil 898 (.signature 6) Tree.nil) 900 (.named 19) Tree.nil)) 903
  (.signature 6) (.node (.node (.node Tree.nil 904 (.other 10) Tree.nil) 905 (.named 80) (.node Tree.nil 906 (.string) Tree.nil)) 907 (.named 80)
  (.node (.node Tree.nil 908 (.pointer (.named 80)) Tree.nil) 911 (.other 10) Tree.nil))) 912 (.named 80) (.node (.node (.node (.node Tree.nil 913
  (.string) Tree.nil) 914 (.named 80) (.node Tree.nil 915 (.pointer (.named 80)) Tree.nil)) 918 (.other 10) (.node (.node Tree.nil 919 (.named 80)
  Tree.nil) 920 (.string) Tree.nil)) 921 (.named 80) (.node (.node (.node Tree.nil 922 (.pointer (.named 80)) Tree.nil) 925 (.named 80) Tree.nil)
  926 (.string) (.node (.node Tree.nil 927 (.named 80) Tree.nil) 928 (.pointer (.named 80)) Tree.nil))))))))
/-- Constant values of expressions. -/
def valueTable : Tree Const := (.node (.node (.node (.node (.node (.node Tree.nil 43 (.str s61) Tree.nil) 58 (.str s62) (.node Tree.nil 61 (.other)
  Tree.nil)) 76 (.other) (.node (.node Tree.nil 83 (.str s63) Tree.nil) 95 (.other) (.node Tree.nil 98 (.str s62) Tree.nil))) 126 (.str s64) (.node
  (.node (.node Tree.nil 147 (.other) Tree.nil) 149 (.str s65) (.node Tree.nil 154 (.other) Tree.nil)) 156 (.str s66) (.node (.node Tree.nil 161
  (.other) Tree.nil) 163 (.str s67) Tree.nil))) 168 (.other) (.node (.node (.node (.node Tree.nil 170 (.str s68) Tree.nil) 175 (.other) (.node
  Tree.nil 177 (.str s69) Tree.nil)) 183 (.str s62) (.node (.node Tree.nil 201 (.other) Tree.nil) 205 (.other) (.node Tree.nil 215 (.str s61)
  Tree.nil))) 232 (.other) (.node (.node (.node Tree.nil 236 (.other) Tree.nil) 246 (.str s61) (.node Tree.nil 254 (.str s70) Tree.nil)) 265
  (.other) (.node (.node Tree.nil 269 (.other) Tree.nil) 279 (.str s61) Tree.nil)))) 301 (.str s71) (.node (.node (.node (.node (.node Tree.nil 316
  (.other) Tree.nil) 325 (.str s61) (.node Tree.nil 419 (.str s62) Tree.nil)) 433 (.str s72) (.node (.node Tree.nil 447 (.str s38) Tree.nil) 449
  (.str s63) (.node Tree.nil 510 (.str s62) Tree.nil))) 533 (.str s73) (.node (.node (.node Tree.nil 549 (.str s74) Tree.nil) 553 (.str s75) (.node
  Tree.nil 569 (.str s75) Tree.nil)) 579 (.str s76) (.node (.node Tree.nil 596 (.str s61) Tree.nil) 621 (.str s77) Tree.nil))) 624 (.other) (.node
  (.node (.node (.node Tree.nil 672 (.other) Tree.nil) 677 (.str s78) (.node Tree.nil 741 (.str s79) Tree.nil)) 869 (.other) (.node (.node Tree.nil
  872 (.str s62) Tree.nil) 879 (.str s80) (.node Tree.nil 892 (.str s80) Tree.nil))) 904 (.other) (.node (.node (.node Tree.nil 906 (.str s81)
  Tree.nil) 911 (.other) (.node Tree.nil 913 (.str s82) Tree.nil)) 918 (.other) (.node (.node Tree.nil 920 (.str s83) Tree.nil) 926 (.str s62)
  Tree.nil)))))
/-- `typeutil.Callee` of call expressions. -/
def calleeTable : Tree Nat := (.node (.node (.node (.node Tree.nil 74 (46) Tree.nil) 137 (52) Tree.nil) 319 (57) (.node (.node Tree.nil 397 (61)
  Tree.nil) 408 (62) Tree.nil)) 465 (64) (.node (.node (.node Tree.nil 481 (62) Tree.nil) 488 (64) Tree.nil) 534 (40) (.node Tree.nil 839 (82)
  Tree.nil)))
/-- `Info.Uses`. -/
def usesTable : Tree Nat := (.node (.node (.node (.node (.node (.node (.node (.node Tree.nil 38 (19) Tree.nil) 42 (80) Tree.nil) 51 (19) (.node
  (.node Tree.nil 52 (1) Tree.nil) 57 (80) Tree.nil)) 67 (19) (.node (.node (.node Tree.nil 73 (46) Tree.nil) 76 (22) Tree.nil) 78 (92) (.node
  (.node Tree.nil 82 (80) Tree.nil) 91 (19) Tree.nil))) 95 (22) (.node (.node (.node (.node Tree.nil 97 (80) Tree.nil) 104 (49) Tree.nil) 116 (49)
  (.node (.node Tree.nil 122 (16) Tree.nil) 132 (19) Tree.nil)) 136 (52) (.node (.node (.node Tree.nil 143 (19) Tree.nil) 147 (21) Tree.nil) 148
  (80) (.node Tree.nil 154 (21) Tree.nil)))) 155 (80) (.node (.node (.node (.node (.node Tree.nil 161 (21) Tree.nil) 162 (80) Tree.nil) 168 (21)
  (.node (.node Tree.nil 169 (80) Tree.nil) 175 (21) Tree.nil)) 176 (80) (.node (.node (.node Tree.nil 182 (80) Tree.nil) 194 (19) Tree.nil) 197
  (19) (.node Tree.nil 201 (21) Tree.nil))) 202 (95) (.node (.node (.node (.node Tree.nil 205 (21) Tree.nil) 207 (95) Tree.nil) 209 (96) (.node
  (.node Tree.nil 214 (80) Tree.nil) 222 (80) Tree.nil)) 228 (19) (.node (.node (.node Tree.nil 232 (21) Tree.nil) 233 (97) Tree.nil) 236 (21)
  (.node Tree.nil 238 (97) Tree.nil))))) 240 (98) (.node (.node (.node (.node (.node (.node Tree.nil 245 (80) Tree.nil) 253 (80) Tree.nil) 261 (19)
  (.node (.node Tree.nil 265 (21) Tree.nil) 266 (55) Tree.nil)) 269 (21) (.node (.node (.node Tree.nil 271 (55) Tree.nil) 273 (99) Tree.nil) 278
  (80) (.node (.node Tree.nil 288 (19) Tree.nil) 296 (19) Tree.nil))) 300 (80) (.node (.node (.node (.node Tree.nil 312 (19) Tree.nil) 316 (22)
  Tree.nil) 318 (57) (.node (.node Tree.nil 324 (80) Tree.nil) 333 (19) Tree.nil)) 336 (1) (.node (.node (.node Tree.nil 340 (19) Tree.nil) 344
  (100) Tree.nil) 345 (101) (.node Tree.nil 396 (61) Tree.nil)))) 403 (19) (.node (.node (.node (.node (.node Tree.nil 407 (62) Tree.nil) 414 (19)
  Tree.nil) 418 (80) (.node (.node Tree.nil 427 (80) Tree.nil) 432 (80) Tree.nil)) 441 (16) (.node (.node (.node Tree.nil 442 (19) Tree.nil) 448
  (80) Tree.nil) 459 (19) (.node Tree.nil 464 (64) Tree.nil))) 471 (0) (.node (.node (.node (.node Tree.nil 474 (19) Tree.nil) 479 (62) Tree.nil)
  483 (102) (.node (.node Tree.nil 486 (103) Tree.nil) 487 (64) Tree.nil)) 492 (103) (.node (.node (.node Tree.nil 498 (19) Tree.nil) 503 (80)
  Tree.nil) 507 (104) (.node Tree.nil 508 (105) Tree.nil)))))) 513 (19) (.node (.node (.node (.node (.node (.node (.node Tree.nil 517 (106)
  Tree.nil) 518 (104) Tree.nil) 520 (106) (.node (.node Tree.nil 526 (19) Tree.nil) 531 (40) Tree.nil)) 541 (16) (.node (.node (.node Tree.nil 543
  (19) Tree.nil) 548 (107) Tree.nil) 551 (108) (.node (.node Tree.nil 552 (80) Tree.nil) 563 (19) Tree.nil))) 567 (109) (.node (.node (.node (.node
  Tree.nil 568 (80) Tree.nil) 574 (16) Tree.nil) 578 (110) (.node (.node Tree.nil 582 (110) Tree.nil) 590 (19) Tree.nil)) 595 (80) (.node (.node
  (.node Tree.nil 601 (111) Tree.nil) 604 (112) Tree.nil) 606 (111) (.node Tree.nil 607 (113) Tree.nil)))) 609 (111) (.node (.node (.node (.node
  (.node Tree.nil 615 (19) Tree.nil) 620 (80) Tree.nil) 624 (22) (.node (.node Tree.nil 627 (114) Tree.nil) 630 (115) Tree.nil)) 634 (114) (.node
  (.node (.node Tree.nil 642 (16) Tree.nil) 645 (19) Tree.nil) 659 (74) (.node Tree.nil 664 (16) Tree.nil))) 667 (19) (.node (.node (.node (.node
  Tree.nil 672 (22) Tree.nil) 674 (117) Tree.nil) 676 (80) (.node (.node Tree.nil 683 (23) Tree.nil) 692 (76) Tree.nil)) 697 (16) (.node (.node
  (.node Tree.nil 700 (19) Tree.nil) 704 (23) Tree.nil) 712 (73) (.node Tree.nil 713 (74) Tree.nil))))) 719 (73) (.node (.node (.node (.node (.node
  (.node Tree.nil 720 (76) Tree.nil) 727 (119) Tree.nil) 728 (120) (.node (.node Tree.nil 734 (19) Tree.nil) 739 (19) Tree.nil)) 740 (80) (.node
  (.node (.node Tree.nil 747 (121) Tree.nil) 753 (16) Tree.nil) 760 (80) (.node Tree.nil 766 (16) Tree.nil))) 770 (122) (.node (.node (.node (.node
  Tree.nil 771 (105) Tree.nil) 777 (80) Tree.nil) 783 (16) (.node (.node Tree.nil 787 (123) Tree.nil) 788 (105) Tree.nil)) 794 (80) (.node (.node
  (.node Tree.nil 800 (16) Tree.nil) 801 (16) Tree.nil) 806 (23) (.node Tree.nil 811 (80) Tree.nil)))) 817 (19) (.node (.node (.node (.node (.node
  Tree.nil 821 (23) Tree.nil) 826 (80) Tree.nil) 832 (16) (.node (.node Tree.nil 836 (126) Tree.nil) 837 (82) Tree.nil)) 855 (19) (.node (.node
  (.node Tree.nil 859 (23) Tree.nil) 865 (19) Tree.nil) 869 (22) (.node Tree.nil 871 (80) Tree.nil))) 878 (80) (.node (.node (.node (.node Tree.nil
  887 (19) Tree.nil) 891 (80) Tree.nil) 900 (19) (.node (.node Tree.nil 904 (21) Tree.nil) 905 (80) Tree.nil)) 911 (21) (.node (.node (.node
  Tree.nil 912 (80) Tree.nil) 918 (21) Tree.nil) 919 (80) (.node Tree.nil 925 (80) Tree.nil)))))))
/-- `Info.Selections`. -/
def selectionTable : Tree (GoType × Nat) := (.node (.node (.node Tree.nil 509 ((.pointer (.named 80), 105)) Tree.nil) 772 ((.pointer (.named 80),
  105)) Tree.nil) 789 ((.pointer (.named 80), 105)) (.node Tree.nil 838 ((.pointer (.named 80), 82)) Tree.nil))
/-- Identifiers that are names of imported packages. -/
def pkgNameTable : Tree GoString := (.node Tree.nil 530 (s35) Tree.nil)
/-- Method sets. -/
def methodSetTable : Tree (List (GoString × Nat)) := (.node (.node (.node (.node Tree.nil 22 ([(s45, 1385)]) Tree.nil) 27 ([(s7, 1386)]) Tree.nil)
  95 ([(s7, 20)]) (.node (.node Tree.nil 246 ([(s7, 50)]) Tree.nil) 365 ([(s45, 90)]) Tree.nil)) 370 ([(s45, 75)]) (.node (.node (.node Tree.nil 371
  ([(s45, 75)]) Tree.nil) 380 ([(s45, 77)]) Tree.nil) 381 ([(s45, 77)]) (.node Tree.nil 401 ([(s56, 84), (s53, 81), (s55, 83), (s7, 85), (s14, 54),
  (s54, 82)]) Tree.nil)))
/-- Types implementing `error`. -/
def implErrorTable : Tree Unit := (.node (.node (.node Tree.nil 27 (()) Tree.nil) 95 (()) Tree.nil) 246 (()) (.node Tree.nil 401 (()) Tree.nil))
/-- Types implementing `error` with a code. -/
def implCodeTable : Tree Unit := (.node Tree.nil 401 (()) Tree.nil)
/-- Types implementing `error` with a cause. -/
def implCauseTable : Tree Unit := (.node Tree.nil 401 (()) Tree.nil)
/-- Signatures: types of parameters, variadic, number of results. -/
def sigTable : Tree (List GoType × Bool × Nat) := (.node (.node (.node (.node Tree.nil 6 (([], false, 1)) Tree.nil) 7 (([], false, 2)) (.node
  Tree.nil 11 (([], false, 1)) Tree.nil)) 12 (([.named 19], false, 1)) (.node (.node Tree.nil 13 (([], false, 1)) Tree.nil) 14 (([.slice (.named
  19), .other 8], false, 1)) (.node Tree.nil 15 (([], false, 0)) Tree.nil))) 16 (([], false, 1)) (.node (.node (.node Tree.nil 17 (([], false, 2))
  Tree.nil) 18 (([], false, 2)) (.node Tree.nil 20 (([.other 10], false, 1)) Tree.nil)) 21 (([.string, .slice (.interface 3)], true, 1)) (.node
  (.node Tree.nil 22 (([.string], false, 1)) Tree.nil) 23 (([], false, 1)) Tree.nil)))
/-- Tuples of results. -/
def tupleTable : Tree (List GoType) := (.node (.node Tree.nil 9 ([.named 19, .other 8]) Tree.nil) 19 ([.string, .named 19]) Tree.nil)
/-- Fields of structs. -/
def structTable : Tree (List (GoString × GoType)) := (.node (.node Tree.nil 1 ([(s33, .string)]) Tree.nil) 2 ([]) Tree.nil)
/-- Underlying types of named types. -/
def underlyingTable : Tree GoType := (.node (.node (.node Tree.nil 19 (.interface 5) Tree.nil) 49 (.struct 2) (.node Tree.nil 73 (.interface 4)
  Tree.nil)) 74 (.struct 2) (.node (.node Tree.nil 76 (.struct 2) Tree.nil) 80 (.struct 1) Tree.nil))
/-- Which types implement which interfaces. -/
def implTable : Tree (Tree Unit) := (.node (.node Tree.nil 4 ((.node (.node (.node Tree.nil 22 (()) Tree.nil) 365 (()) (.node Tree.nil 370 (())
  Tree.nil)) 371 (()) (.node (.node Tree.nil 380 (()) Tree.nil) 381 (()) Tree.nil))) Tree.nil) 5 ((.node (.node (.node Tree.nil 27 (()) Tree.nil) 95
  (()) Tree.nil) 246 (()) (.node Tree.nil 401 (()) Tree.nil))) Tree.nil)
/-- Comments at return statements (`ast.NewCommentMap`). -/
def commentTable : Tree (List (List GoString)) := (.node (.node (.node (.node Tree.nil 46 ([[s84]]) Tree.nil) 62 ([[s85]]) (.node Tree.nil 107
  ([[s86]]) Tree.nil)) 138 ([[s87]]) (.node (.node Tree.nil 321 ([[s88]]) Tree.nil) 347 ([[s89], [s90]]) (.node Tree.nil 409 ([[s91]]) Tree.nil)))
  422 ([[s92]]) (.node (.node (.node Tree.nil 436 ([[s93]]) Tree.nil) 452 ([[s94]]) (.node Tree.nil 466 ([[s95]]) Tree.nil)) 535 ([[s96], [s97]])
  (.node (.node Tree.nil 705 ([[s98], [s99]]) Tree.nil) 860 ([[s100]]) (.node Tree.nil 895 ([[s101]]) Tree.nil))))
/-- Function declarations. -/
def declTable : Tree DeclInfo := (.node (.node (.node (.node (.node (.node Tree.nil 0 (⟨s0, true, none, none, 48, 45, []⟩) Tree.nil) 1 (⟨s1, true,
  none, none, 64, 46, []⟩) Tree.nil) 2 (⟨s2, true, none, some (CommentText.text [s102, s103, s104, s103, s105]), 88, 47, []⟩) (.node Tree.nil 3
  (⟨s6, true, none, some (CommentText.text [s106, s103, s104, s103, s107]), 109, 48, []⟩) Tree.nil)) 4 (⟨s7, true, some 117, none, 129, 50, [⟨115,
  s3, (some 7)⟩]⟩) (.node (.node (.node Tree.nil 5 (⟨s8, true, none, some (CommentText.text [s108, s103, s104, s103, s109]), 140, 51, []⟩) Tree.nil)
  6 (⟨s9, false, none, none, 191, 52, []⟩) Tree.nil) 7 (⟨s11, true, none, some (CommentText.text [s104, s103, s110]), 220, 53, []⟩) (.node Tree.nil
  8 (⟨s14, true, some 223, some (CommentText.text [s104, s103, s110]), 251, 54, [⟨221, s3, (some 13)⟩]⟩) Tree.nil))) 9 (⟨s15, true, none, some
  (CommentText.text [s104, s103, s110]), 284, 56, []⟩) (.node (.node (.node (.node Tree.nil 10 (⟨s17, false, none, none, 309, 57, []⟩) Tree.nil) 12
  (⟨s18, true, none, some (CommentText.text [s104, s103, s110]), 330, 58, []⟩) Tree.nil) 13 (⟨s19, true, none, some (CommentText.text [s111]), 349,
  59, []⟩) (.node Tree.nil 14 (⟨s22, false, none, none, 400, 60, []⟩) Tree.nil)) 15 (⟨s23, true, none, some (CommentText.text [s112]), 411, 61, []⟩)
  (.node (.node (.node Tree.nil 16 (⟨s24, true, none, some (CommentText.text [s113, s114, s103, s104, s103, s115]), 424, 62, []⟩) Tree.nil) 17
  (⟨s25, true, none, none, 438, 63, []⟩) Tree.nil) 18 (⟨s26, true, none, some (CommentText.text [s116, s103, s104, s103, s117]), 454, 64, []⟩)
  (.node Tree.nil 19 (⟨s27, true, none, some (CommentText.text [s118, s119, s120, s103, s104, s103, s117]), 468, 65, []⟩) Tree.nil)))) 20 (⟨s28,
  true, none, some (CommentText.text [s118, s119, s120, s103, s104, s103, s121, s122]), 495, 66, []⟩) (.node (.node (.node (.node (.node Tree.nil 21
  (⟨s31, true, none, some (CommentText.text [s123, s103, s104, s103, s115]), 523, 67, []⟩) Tree.nil) 22 (⟨s34, true, none, some (CommentText.text
  [s124, s125, s103, s104, s103, s126]), 537, 68, []⟩) Tree.nil) 23 (⟨s37, true, none, some (CommentText.text [s127, s103, s104, s103, s128]), 559,
  69, []⟩) (.node Tree.nil 24 (⟨s39, true, none, some (CommentText.text [s129, s103, s104, s103, s128]), 587, 70, []⟩) Tree.nil)) 25 (⟨s40, true,
  none, some (CommentText.text [s130, s103, s104, s103, s131]), 612, 71, []⟩) (.node (.node (.node Tree.nil 26 (⟨s44, true, none, some
  (CommentText.text [s132, s103, s104, s103, s133]), 638, 72, []⟩) Tree.nil) 27 (⟨s45, true, some 659, some (CommentText.text [s104, s103, s134]),
  686, 75, []⟩) Tree.nil) 28 (⟨s45, true, some 692, some (CommentText.text [s135]), 707, 77, []⟩) (.node Tree.nil 29 (⟨s49, true, none, none, 731,
  78, []⟩) Tree.nil))) 30 (⟨s52, true, none, some (CommentText.text [s104, s103, s136]), 750, 79, []⟩) (.node (.node (.node (.node Tree.nil 31
  (⟨s53, true, some 761, none, 775, 81, [⟨759, s3, (some 64)⟩]⟩) Tree.nil) 32 (⟨s54, true, some 778, none, 792, 82, [⟨776, s3, (some 65)⟩]⟩)
  Tree.nil) 33 (⟨s55, true, some 795, none, 809, 83, [⟨793, s3, (some 66)⟩]⟩) (.node Tree.nil 34 (⟨s56, true, some 812, none, 824, 84, [⟨810, s3,
  (some 67)⟩]⟩) Tree.nil)) 35 (⟨s7, true, some 827, none, 842, 85, [⟨825, s3, (some 68)⟩]⟩) (.node (.node (.node Tree.nil 36 (⟨s57, true, none, some
  (CommentText.text [s137, s103, s104, s103, s138]), 862, 86, []⟩) Tree.nil) 37 (⟨s58, true, none, some (CommentText.text [s139, s103, s104, s103,
  s140]), 884, 87, []⟩) Tree.nil) 38 (⟨s59, true, none, some (CommentText.text [s141, s142, s103, s104, s103, s138]), 897, 88, []⟩) (.node Tree.nil
  39 (⟨s60, true, none, some (CommentText.text [s143, s103, s104, s103, s144, s145, s146]), 934, 89, []⟩) Tree.nil)))))
/-- Named interfaces. -/
def interfaceTable : Tree Unit := (.node (.node Tree.nil 19 (()) Tree.nil) 73 (()) Tree.nil)
/-- Methods of named types. -/
def methodNameTable : Tree (List GoString) := (.node (.node (.node Tree.nil 49 ([s7]) Tree.nil) 74 ([s45]) Tree.nil) 76 ([s45]) (.node Tree.nil 80
  ([s14, s53, s54, s55, s56, s7]) Tree.nil))
/-- Objects of interface methods. -/
def methodObjTable : Tree Nat := (.node Tree.nil 640 (90) Tree.nil)
/-- Syntax and types of the package, and the facts exported by the packages it imports. -/
def env : Env where
  funcs := [f0, f1, f2, f3, f4, f5, f6, f7, f8, f9, f10, f11, f12, f13, f14, f15, f16, f17, f18, f19, f20, f21, f22, f23, f24, f25, f26, f27, f28,
  f29, f30, f31, f32, f33, f34, f35, f36, f37, f38, f39]
  objects := objects
  typeOf := fun n => (typeTable.find n).getD (.other 0)
  value := valueTable.find
  callee := calleeTable.find
  uses := usesTable.find
  selection := selectionTable.find
  pkgName := pkgNameTable.find
  funcObj := fun f => ((declTable.find f).map (·.obj)).getD 0
  implError := fun t => has implErrorTable t
  implCode := fun t => has implCodeTable t
  sigResults := fun n => ((sigTable.find n).map (·.2.2)).getD 0
  methodSet := fun t name => ((typeKey t).bind methodSetTable.find).bind fun l => lookup name l
  functions := fun _ => none
  methods := fun _ => []
  comments := fun n => ((commentTable.find n).getD []).map CommentText.text
  isPrint := fun r => 32 ≤ r && r < 127
  facts := noFacts
/-- The package. -/
def package : Package where
  env := env
  decls := ⟨fun f => ((declTable.find f).map (·.name)).getD [], fun f => ((declTable.find f).map (·.exported)).getD false,
    fun f => (declTable.find f).bind (·.recv), fun f => (declTable.find f).bind (·.doc), fun t => has implCauseTable t,
    fun f => ((declTable.find f).map (·.pos)).getD 0⟩
  types := ⟨fun f => (((declTable.find f).bind (·.recv)).bind typeTable.find).getD (.other 0),
    fun f => ((declTable.find f).map (·.recvNames)).getD [], fun o => (interfaceTable.find o).isSome,
    fun o => (methodNameTable.find o).getD []⟩
  funcs := [0, 1, 2, 3, 4, 5, 6, 7, 8, 9, 10, 12, 13, 14, 15, 16, 17, 18, 19, 20, 21, 22, 23, 24, 25, 26, 27, 28, 29, 30, 31, 32, 33, 34, 35, 36,
  37, 38, 39]
  specs := [⟨114, .named 49, some []⟩, ⟨653, .named 73, none⟩, ⟨658, .named 74, some []⟩, ⟨691, .named 76, some []⟩, ⟨758, .named 80, some [[s33]]⟩]
  ifaces := [⟨s147, 73, .interface 4, [.method ⟨649, ⟨640, s45, (some 51)⟩, ⟨[⟨[⟨641, s48, (some 52)⟩], 642⟩], (some [⟨[], 645⟩]), 7476⟩, some
  (CommentText.text [s104, s103, s134])⟩]⟩]
  methodObj := fun n => (methodObjTable.find n).getD 0
  conv := ⟨fun o => (underlyingTable.find o).getD (.other 0), fun n => ((sigTable.find n).map (·.1)).getD [],
    fun n => ((sigTable.find n).map (·.2.1)).getD false, fun n => (tupleTable.find n).getD [], fun n => (structTable.find n).getD [],
    fun t n => n == 3 || ((implTable.find n).map fun tr => has tr t).getD false⟩
  top := [
    .func 0,
    .func 1,
    .func 2,
    .func 3,
    .node (.other 114 [.other 113 [.ident ⟨110, s64, (some 6)⟩, .other 112 [.other 111 []]]]),
    .func 4,
    .func 5,
    .func 6,
    .func 7,
    .func 8,
    .node (.other 258 [.valueSpec 257 [⟨252, s16, (some 15)⟩] none [.unary 256 true (.compositeLit 255 [.basicLit 254])]]),
    .func 9,
    .func 10,
    .func 12,
    .func 13,
    .node (.other 392 [.other 391 [.basicLit 390]]),
    .func 14,
    .func 15,
    .func 16,
    .func 17,
    .func 18,
    .func 19,
    .func 20,
    .func 21,
    .func 22,
    .func 23,
    .func 24,
    .func 25,
    .func 26,
    .node (.other 653 [.other 652 [.ident ⟨639, s147, (some 50)⟩, .other 651 [.other 650 [.other 649 [.ident ⟨640, s45, (some 51)⟩, .other 648
  [.other 644 [.other 643 [.ident ⟨641, s48, (some 52)⟩, .ident ⟨642, s148, none⟩]], .other 647 [.other 646 [.ident ⟨645, s149, none⟩]]]]]]]]),
    .node (.other 658 [.other 657 [.ident ⟨654, s150, (some 53)⟩, .other 656 [.other 655 []]]]),
    .func 27,
    .node (.other 691 [.other 690 [.ident ⟨687, s151, (some 56)⟩, .other 689 [.other 688 []]]]),
    .func 28,
    .func 29,
    .func 30,
    .node (.other 758 [.other 757 [.ident ⟨751, s7, (some 26)⟩, .other 756 [.other 755 [.other 754 [.ident ⟨752, s33, (some 63)⟩, .ident ⟨753, s148,
  none⟩]]]]]),
    .func 31,
    .func 32,
    .func 33,
    .func 34,
    .func 35,
    .func 36,
    .func 37,
    .func 38,
    .func 39]
/-- The run, in one order. -/
def result : Except Stop Outcome := runVerify package Check.source true
/-- What is expected.  The comments in the package say (with facts as `object: fact`):
```
invalid.go:3: function "CodeNotDeclared" is exported, but does not declare any error codes
invalid.go:7: error should be returned as the last argument
invalid.go:16: CallToInvalidFunction: ErrorCodes: zonk-error
invalid.go:17: unsupported: tracking error codes for function call with error as non-last return argument
invalid.go:29: ReturnInvalidError: ErrorCodes: hello-error
invalid.go:33: expression does not define an error code
invalid.go:45: InvalidErrorCodeFormat: ErrorCodes: hello-error
invalid.go:52: error code has invalid format: should match .*
invalid.go:54: error code has invalid format: should match .*
invalid.go:56: error code has invalid format: should match .*
invalid.go:58: error code has invalid format: should match .*
invalid.go:60: error code has invalid format: should match .*
invalid.go:69: InvalidErrorFromParameter: ErrorCodes: some-error
invalid.go:72: returned error may not be a parameter, receiver or global variable
invalid.go:74: returned error may not be a parameter, receiver or global variable
invalid.go:83: InvalidErrorFromReceiver: ErrorCodes: some-error
invalid.go:86: returned error may not be a parameter, receiver or global variable
invalid.go:88: returned error may not be a parameter, receiver or global variable
invalid.go:99: InvalidErrorFromGlobal: ErrorCodes: some-error
invalid.go:102: returned error may not be a parameter, receiver or global variable
invalid.go:104: returned error may not be a parameter, receiver or global variable
invalid.go:119: InvalidErrorFromLambda: ErrorCodes: some-error
invalid.go:121: invalid error source: definition of the unnamed function could not be found
invalid.go:127: SliceAccess: ErrorCodes:
invalid.go:128: expression is not supported in error code analysis
main.go:19: One: ErrorCodes: hello-error
main.go:29: Two: ErrorCodes: hello-error
main.go:33: function "Three" is exported, but does not declare any error codes
main.go:42: Four: ErrorCodes: zonk-error
main.go:53: Five: ErrorCodes: zonk-error
main.go:65: Six: ErrorCodes: hello-error zonk-error
main.go:78: Seven: ErrorCodes: hello-error
main.go:92: Eight: ErrorCodes: hello-error
main.go:92: function "Eight" has a mismatch of declared and actual error codes: unused codes: \[hello-error]
main.go:93: function "Errorf" in package "fmt" does not declare error codes
main.go:101: Named: ErrorCodes: named-error
main.go:112: Shadowed: ErrorCodes: named-error
main.go:127: IdentLoop: ErrorCodes: some-error
main.go:140: PointerOfLocal: ErrorCodes: value-error
main.go:149: Io: ErrorInterface: FetchFromUrl
main.go:153: FetchFromUrl: ErrorCodes: io-error
main.go:161: FetchFromUrl: ErrorCodes: io-error
main.go:173: FetchFromUrl: ErrorCodes:
main.go:187: DefinitionWithoutAssignment: ErrorCodes: var-error
main.go:192: Error: ErrorType{Field:{Name:"TheCode", Position:0}, Codes:}
mismatch.go:8: UnusedCode: ErrorCodes: unused-error
mismatch.go:8: function "UnusedCode" has a mismatch of declared and actual error codes: unused codes: \[unused-error]
mismatch.go:20: MissingCode: ErrorCodes: hello-error
mismatch.go:20: function "MissingCode" has a mismatch of declared and actual error codes: missing codes: \[missing-error]
mismatch.go:36: MissingAndUnusedCode: ErrorCodes: unused-error
mismatch.go:36: function "MissingAndUnusedCode" has a mismatch of declared and actual error codes: missing codes: \[missing-error] unused codes: \[unused-error]
mismatch.go:50: MultipleMismatchedCodes: ErrorCodes: hello-error unused-error-aa unused-error-ab
mismatch.go:50: function "MultipleMismatchedCodes" has a mismatch of declared and actual error codes: missing codes: \[missing-error-a missing-error-ab missing-error-cc] unused codes: \[unused-error-aa unused-error-ab]
``` -/
def expected : Check.Expected where
  tags := []
  ifaces := []
  signatures := [{ at_ := 51, msg := Serum.ClaimMsg.errorNotLast }]
  claims := [{ at_ := 48, msg := Serum.ClaimMsg.exportedUndeclared b!"CodeNotDeclared" },
    { at_ := 438, msg := Serum.ClaimMsg.exportedUndeclared b!"Three" }]
  bodies := [(2, { at_ := 71, msg := Serum.Msg.nonLastResult }),
    (3, { at_ := 106, msg := Serum.Msg.noErrorCode }),
    (6, { at_ := 149, msg := Serum.Msg.badConstant (Serum.ConstError.format) }),
    (6, { at_ := 156, msg := Serum.Msg.badConstant (Serum.ConstError.format) }),
    (6, { at_ := 163, msg := Serum.Msg.badConstant (Serum.ConstError.format) }),
    (6, { at_ := 170, msg := Serum.Msg.badConstant (Serum.ConstError.format) }),
    (6, { at_ := 177, msg := Serum.Msg.badConstant (Serum.ConstError.format) }),
    (7, { at_ := 202, msg := Serum.Msg.errorOutOfScope }),
    (7, { at_ := 207, msg := Serum.Msg.errorOutOfScope }),
    (8, { at_ := 233, msg := Serum.Msg.errorOutOfScope }),
    (8, { at_ := 238, msg := Serum.Msg.errorOutOfScope }),
    (9, { at_ := 266, msg := Serum.Msg.errorOutOfScope }),
    (9, { at_ := 271, msg := Serum.Msg.errorOutOfScope }),
    (12, { at_ := 319, msg := Serum.Msg.unnamedFunction }),
    (13, { at_ := 346, msg := Serum.Msg.indexUnsupported }),
    (22, { at_ := 532, msg := Serum.Msg.foreignUndeclared b!"Errorf" b!"fmt" })]
  mismatches := [(22, b!"unused codes: [hello-error]"),
    (36, b!"unused codes: [unused-error]"),
    (37, b!"missing codes: [missing-error]"),
    (38, b!"missing codes: [missing-error] unused codes: [unused-error]"),
    (39, b!"missing codes: [missing-error-a missing-error-ab missing-error-cc] unused codes: [unused-error-aa unused-error-ab]")]
  conversions := []
  codes := [(47, [b!"zonk-error"]),
    (48, [b!"hello-error"]),
    (51, [b!"hello-error"]),
    (53, [b!"some-error"]),
    (54, [b!"some-error"]),
    (56, [b!"some-error"]),
    (58, [b!"some-error"]),
    (59, []),
    (61, [b!"hello-error"]),
    (62, [b!"hello-error"]),
    (64, [b!"zonk-error"]),
    (65, [b!"zonk-error"]),
    (66, [b!"hello-error", b!"zonk-error"]),
    (67, [b!"hello-error"]),
    (68, [b!"hello-error"]),
    (69, [b!"named-error"]),
    (70, [b!"named-error"]),
    (71, [b!"some-error"]),
    (72, [b!"value-error"]),
    (75, [b!"io-error"]),
    (77, []),
    (79, [b!"var-error"]),
    (86, [b!"unused-error"]),
    (87, [b!"hello-error"]),
    (88, [b!"unused-error"]),
    (89, [b!"hello-error", b!"unused-error-ab", b!"unused-error-aa"]),
    (90, [b!"io-error"])]
  ctors := []
  errorTypes := [(80, { codes := [], field := some { name := b!"TheCode", position := 0 } })]
  interfaces := [(73, [(b!"FetchFromUrl", [b!"io-error"])])]
  objects := 1385

/-- What functions call, and which literals they visit. -/
def graph : Check.Graph :=
  [([], []), ([], []), ([], []), ([], []), ([], []), ([6], []), ([], []), ([], []), ([], []), ([], []), ([], []), ([], []), ([], []), ([],
  []), ([], []), ([16], []), ([], []), ([], []), ([], []), ([18], []), ([16, 18], []), ([], []), ([], []), ([], []), ([], []), ([], []), ([],
  []), ([], []), ([], []), ([], []), ([], []), ([], []), ([], []), ([], []), ([], []), ([32], []), ([], []), ([], []), ([], []), ([], [])]

theorem checked : Check.run package true expected graph = true := by decide +kernel

theorem imports : Check.Tables package.env.facts := tables_noFacts

theorem exported : Check.Tables (Check.factsOf result) := Check.tables checked imports

/-- The facts known before a run: those exported by some run over the imported packages. -/
def Imported (F : Facts) : Prop :=
  F = noFacts

/-- The facts known after a run. -/
def Exports (F : Facts) : Prop := Check.Exports package Imported true F

theorem imports_same (F : Facts) (h : Imported F) : Props.Run.SameFacts package.env.facts F := by
  obtain rfl := h
  exact (.refl _)

theorem exports_same {F : Facts} (h : Exports F) : Props.Run.SameFacts (Check.factsOf result) F :=
  Check.exports_same checked imports imports_same h

/-- **C54**: every run over the package has the expected result. -/
theorem always : Check.Always package Imported true expected :=
  Check.always checked imports imports_same

/-- For the nodes with diagnostics: file, line, and type of node. -/
def nodes : Tree (GoString × Nat × GoString) :=
  (.node (.node (.node (.node (.node Tree.nil 48 ((b!"invalid.go", 3, b!"FuncDecl")) Tree.nil) 51 ((b!"invalid.go", 7, b!"Ident")) (.node Tree.nil 71 ((b!"invalid.go", 17, b!"Ident")) Tree.nil)) 106 ((b!"invalid.go", 33, b!"UnaryExpr")) (.node (.node Tree.nil 149 ((b!"invalid.go", 52, b!"BasicLit")) Tree.nil) 156 ((b!"invalid.go", 54, b!"BasicLit")) Tree.nil)) 163 ((b!"invalid.go", 56, b!"BasicLit")) (.node (.node (.node Tree.nil 170 ((b!"invalid.go", 58, b!"BasicLit")) Tree.nil) 177 ((b!"invalid.go", 60, b!"BasicLit")) Tree.nil) 202 ((b!"invalid.go", 72, b!"Ident")) (.node (.node Tree.nil 207 ((b!"invalid.go", 74, b!"Ident")) Tree.nil) 233 ((b!"invalid.go", 86, b!"Ident")) Tree.nil))) 238 ((b!"invalid.go", 88, b!"Ident")) (.node (.node (.node (.node Tree.nil 266 ((b!"invalid.go", 102, b!"Ident")) Tree.nil) 271 ((b!"invalid.go", 104, b!"Ident")) Tree.nil) 319 ((b!"invalid.go", 121, b!"CallExpr")) (.node (.node Tree.nil 346 ((b!"invalid.go", 128, b!"IndexExpr")) Tree.nil) 438 ((b!"main.go", 33, b!"FuncDecl")) Tree.nil)) 532 ((b!"main.go", 93, b!"SelectorExpr")) (.node (.node (.node Tree.nil 537 ((b!"main.go", 92, b!"FuncDecl")) Tree.nil) 862 ((b!"mismatch.go", 8, b!"FuncDecl")) Tree.nil) 884 ((b!"mismatch.go", 20, b!"FuncDecl")) (.node (.node Tree.nil 897 ((b!"mismatch.go", 36, b!"FuncDecl")) Tree.nil) 934 ((b!"mismatch.go", 50, b!"FuncDecl")) Tree.nil))))

/-- The names of the objects named in diagnostics other than by identifiers. -/
def objectNames : Tree GoString :=
  Tree.nil

def names : Names where
  object := fun o => (objectNames.find o).getD []
  kind := fun n => ((nodes.find n).map fun p => p.2.2).getD []

def place (n : NodeId) : GoString × Nat := ((nodes.find n).map fun p => (p.1, p.2.1)).getD ([], 0)

/-- What is printed: file, line and text. -/
def lines : List Check.Line := [(b!"invalid.go", 7, b!"error should be returned as the last argument"),
    (b!"invalid.go", 3, b!"function \"CodeNotDeclared\" is exported, but does not declare any error codes"),
    (b!"main.go", 33, b!"function \"Three\" is exported, but does not declare any error codes"),
    (b!"invalid.go", 17, b!"unsupported: tracking error codes for function call with error as non-last return argument"),
    (b!"invalid.go", 33, b!"expression does not define an error code"),
    (b!"invalid.go", 52, b!"error code has invalid format: should match [a-zA-Z][a-zA-Z0-9\\-]*[a-zA-Z0-9]"),
    (b!"invalid.go", 54, b!"error code has invalid format: should match [a-zA-Z][a-zA-Z0-9\\-]*[a-zA-Z0-9]"),
    (b!"invalid.go", 56, b!"error code has invalid format: should match [a-zA-Z][a-zA-Z0-9\\-]*[a-zA-Z0-9]"),
    (b!"invalid.go", 58, b!"error code has invalid format: should match [a-zA-Z][a-zA-Z0-9\\-]*[a-zA-Z0-9]"),
    (b!"invalid.go", 60, b!"error code has invalid format: should match [a-zA-Z][a-zA-Z0-9\\-]*[a-zA-Z0-9]"),
    (b!"invalid.go", 72, b!"returned error may not be a parameter, receiver or global variable"),
    (b!"invalid.go", 74, b!"returned error may not be a parameter, receiver or global variable"),
    (b!"invalid.go", 86, b!"returned error may not be a parameter, receiver or global variable"),
    (b!"invalid.go", 88, b!"returned error may not be a parameter, receiver or global variable"),
    (b!"invalid.go", 102, b!"returned error may not be a parameter, receiver or global variable"),
    (b!"invalid.go", 104, b!"returned error may not be a parameter, receiver or global variable"),
    (b!"invalid.go", 121, b!"invalid error source: definition of the unnamed function could not be found"),
    (b!"invalid.go", 128, b!"expression is not supported in error code analysis"),
    (b!"main.go", 93, b!"function \"Errorf\" in package \"fmt\" does not declare error codes"),
    (b!"main.go", 92, b!"function \"Eight\" has a mismatch of declared and actual error codes: unused codes: [hello-error]"),
    (b!"mismatch.go", 8, b!"function \"UnusedCode\" has a mismatch of declared and actual error codes: unused codes: [unused-error]"),
    (b!"mismatch.go", 20, b!"function \"MissingCode\" has a mismatch of declared and actual error codes: missing codes: [missing-error]"),
    (b!"mismatch.go", 36, b!"function \"MissingAndUnusedCode\" has a mismatch of declared and actual error codes: missing codes: [missing-error] unused codes: [unused-error]"),
    (b!"mismatch.go", 50, b!"function \"MultipleMismatchedCodes\" has a mismatch of declared and actual error codes: missing codes: [missing-error-a missing-error-ab missing-error-cc] unused codes: [unused-error-aa unused-error-ab]")]

/-- **C54**: for every run over the package, these lines are printed. -/
theorem prints : Check.Prints package Imported true names place lines :=
  Check.prints always (by decide +kernel)

end Serum.Testdata.p001
