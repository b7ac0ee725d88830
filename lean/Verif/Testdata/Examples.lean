import Verif.Testdata.Support

/-!
# C54: the package analysis/testdata/src/examples

Generated by `scripts/conformance/testdata.py` from 01_error_types.go, 02_basic_examples.go, 03_error_code_origins.go, 04_annotations.go, 05_interfaces.go, 06_error_constructors.go, 07_limitations.go.  Numbers of syntax nodes, objects and types are arbitrary.  The tables hold
what `go/parser` and `go/types` say about the package.
-/

set_option maxRecDepth 100000
set_option linter.all false

namespace Serum.Testdata.examples
open Serum Serum.Testdata

def s0 : GoString := b!"Error"
def s1 : GoString := b!"e"
def s2 : GoString := b!"TheCode"
def s3 : GoString := b!"Code"
def s4 : GoString := b!"fmt"
def s5 : GoString := b!"Sprintf"
def s6 : GoString := b!"ErrorEmpty"
def s7 : GoString := b!"strings"
def s8 : GoString := b!"HasPrefix"
def s9 : GoString := b!"string"
def s10 : GoString := b!"ErrorDisconnect"
def s11 : GoString := b!"ErrorUnknown"
def s12 : GoString := b!"ReturnError2"
def s13 : GoString := b!"Error2"
def s14 : GoString := b!"code"
def s15 : GoString := b!"flag"
def s16 : GoString := b!"ReturnError3"
def s17 : GoString := b!"false"
def s18 : GoString := b!"Add"
def s19 : GoString := b!"item"
def s20 : GoString := b!"nil"
def s21 : GoString := b!"c"
def s22 : GoString := b!"limit"
def s23 : GoString := b!"len"
def s24 : GoString := b!"values"
def s25 : GoString := b!"append"
def s26 : GoString := b!"AddUnused"
def s27 : GoString := b!"panic"
def s28 : GoString := b!"AddMissing"
def s29 : GoString := b!"AddAlt"
def s30 : GoString := b!"err"
def s31 : GoString := b!"Read"
def s32 : GoString := b!"TypeConstruction"
def s33 : GoString := b!"flag1"
def s34 : GoString := b!"flag2"
def s35 : GoString := b!"AssignmentToErrorCodeField"
def s36 : GoString := b!"typ"
def s37 : GoString := b!"FunctionCall"
def s38 : GoString := b!"TryOpen"
def s39 : GoString := b!"fileName"
def s40 : GoString := b!"Overwrite"
def s41 : GoString := b!"OverwriteMultiple"
def s42 : GoString := b!"errors"
def s43 : GoString := b!"index"
def s44 : GoString := b!"MultipleCodes"
def s45 : GoString := b!"true"
def s46 : GoString := b!"HandleErrorOne"
def s47 : GoString := b!"SubtractCode"
def s48 : GoString := b!"AddSubCode"
def s49 : GoString := b!"AssignmentProblem"
def s50 : GoString := b!"Put"
def s51 : GoString := b!"value"
def s52 : GoString := b!"b"
def s53 : GoString := b!"Pop"
def s54 : GoString := b!"UseBoxImplAsBox"
def s55 : GoString := b!"UseBoxInvalidImplAsBox"
def s56 : GoString := b!"NewError"
def s57 : GoString := b!"NewError3"
def s58 : GoString := b!"CallConstructor"
def s59 : GoString := b!"NewGeneralError"
def s60 : GoString := b!"errorCode"
def s61 : GoString := b!"CallModifyError"
def s62 : GoString := b!"ModifyError"
def s63 : GoString := b!"DeadBranchError"
def s64 : GoString := b!"ErrorNotLast"
def s65 : GoString := b!"errorPrefix"
def s66 : GoString := b!"examples-error-"
def s67 : GoString := b!"examples-error-empty"
def s68 : GoString := b!"empty"
def s69 : GoString := b!"examples-error-disconnect"
def s70 : GoString := b!"disconnect"
def s71 : GoString := b!"examples-error-unknown"
def s72 : GoString := b!"unknown"
def s73 : GoString := b!"%s: %s"
def s74 : GoString := b!""
def s75 : GoString := b!"peer disconnected"
def s76 : GoString := b!"error message"
def s77 : GoString := b!"examples-error-flagged"
def s78 : GoString := b!"examples-error-not-implemented"
def s79 : GoString := b!"examples-error-invalid-arg"
def s80 : GoString := b!"examples-error-invalid-collection"
def s81 : GoString := b!"examples-error-limit-reached"
def s82 : GoString := b!"not implemented"
def s83 : GoString := b!"examples-error-closed"
def s84 : GoString := b!"examples-error-unkown"
def s85 : GoString := b!"examples-error-zero"
def s86 : GoString := b!"examples-error-one"
def s87 : GoString := b!"examples-error-%d"
def s88 : GoString := b!"example.txt"
def s89 : GoString := b!"exmaple.txt"
def s90 : GoString := b!"examples-error-invalid-name"
def s91 : GoString := b!"examples-error-failed"
def s92 : GoString := b!"examples-error-two"
def s93 : GoString := b!"examples-error-three"
def s94 : GoString := b!"assigned-error"
def s95 : GoString := b!"examples-error-arg-nil"
def s96 : GoString := b!"examples-error-invalid"
def s97 : GoString := b!"some invalid value"
def s98 : GoString := b!"example-error-unreachable"
def s99 : GoString := b!"// want ReturnError2:\"ErrorCodes: examples-error-disconnect examples-error-empty examples-error-unknown\""
def s100 : GoString := b!"// want ReturnError3:\"ErrorCodes: examples-error-flagged examples-error-not-implemented examples-error-unknown\""
def s101 : GoString := b!"// want FunctionCall:\"ErrorCodes: examples-error-failed examples-error-invalid-name\""
def s102 : GoString := b!"// want Overwrite:\"ErrorCodes: examples-error-overwritten\""
def s103 : GoString := b!"// Error Codes = examples-error-overwritten"
def s104 : GoString := b!"// Error Codes = examples-error-one, examples-error-two"
def s105 : GoString := b!"// Error Codes -= examples-error-one"
def s106 : GoString := b!"// Error Codes -examples-error-two -examples-error-three +examples-error-extra"
def s107 : GoString := b!"// Error Codes -= assigned-error"
def s108 : GoString := b!"// want Put:\"ErrorCodes: examples-error-not-implemented\""
def s109 : GoString := b!"// want Pop:\"ErrorCodes: examples-error-not-implemented\""
def s110 : GoString := b!"// want NewError:\"ErrorConstructor: {CodeParamPosition:0}\" NewError:\"ErrorCodes:\""
def s111 : GoString := b!"// want CallConstructor:\"ErrorCodes: examples-error-not-implemented\""
def s112 : GoString := b!"// want \"error should be returned as the last argument\""
def s113 : GoString := b!"// Errors:"
def s114 : GoString := b!"//"
def s115 : GoString := b!"//    - examples-error-empty      --"
def s116 : GoString := b!"//    - examples-error-disconnect --"
def s117 : GoString := b!"//    - examples-error-unknown    --"
def s118 : GoString := b!"//    - examples-error-flagged         --"
def s119 : GoString := b!"//    - examples-error-unknown         --"
def s120 : GoString := b!"//    - examples-error-not-implemented --"
def s121 : GoString := b!"// Add adds a non-nil value into the collection."
def s122 : GoString := b!"//    - examples-error-invalid-arg        -- if the given argument is nil"
def s123 : GoString := b!"//    - examples-error-invalid-collection -- if the given collection is nil or invalid"
def s124 : GoString := b!"//    - examples-error-limit-reached      -- if the limit of values in the collection is reached"
def s125 : GoString := b!"// None of the following errors are actually returned yet."
def s126 : GoString := b!"// Errors: none -- not actually true, but we want to showcasse missing error codes."
def s127 : GoString := b!"// AddAlt adds a non-nil value into the collection."
def s128 : GoString := b!"// Read for MockedIO always returns 0."
def s129 : GoString := b!"// Errors: none -- this method only returns error to comply with the interface IO."
def s130 : GoString := b!"// TypeConstruction shows, how type constructions are handled,"
def s131 : GoString := b!"// when collecting error codes in the analyser."
def s132 : GoString := b!"// From Error type construction:"
def s133 : GoString := b!"// From Error3 type construction:"
def s134 : GoString := b!"//    - examples-error-closed --"
def s135 : GoString := b!"//    - examples-error-flagged --"
def s136 : GoString := b!"//    - examples-error-unknown --"
def s137 : GoString := b!"// AssignmentToErrorCodeField demonstrates,"
def s138 : GoString := b!"// how assignments to the error code field of a type are handled,"
def s139 : GoString := b!"//    - examples-error-unkown --"
def s140 : GoString := b!"//    - examples-error-zero   --"
def s141 : GoString := b!"//    - examples-error-one    --"
def s142 : GoString := b!"// FunctionCall demonstrates, how function calls are handled,"
def s143 : GoString := b!"//    - examples-error-failed       -- failed to open file"
def s144 : GoString := b!"//    - examples-error-invalid-name -- invalid file name"
def s145 : GoString := b!"// Overwrite uses an annotation to overwrite the actual error code examples-error-unknown"
def s146 : GoString := b!"// with examples-error-overwritten for the error code analysis."
def s147 : GoString := b!"//    - examples-error-overwritten -- error forced by annotation"
def s148 : GoString := b!"// OverwriteMultiple demonstrates how commas can be used in the overwrite annotation"
def s149 : GoString := b!"// to set multiple error codes."
def s150 : GoString := b!"//    - examples-error-one -- error forced by annotation"
def s151 : GoString := b!"//    - examples-error-two -- error forced by annotation"
def s152 : GoString := b!"//    - examples-error-one   --"
def s153 : GoString := b!"//    - examples-error-two   --"
def s154 : GoString := b!"//    - examples-error-three --"
def s155 : GoString := b!"// SubtractCode handles the error code examples-error-one and therefore uses an"
def s156 : GoString := b!"// annotation to get rid of it when returning the error."
def s157 : GoString := b!"//    - examples-error-extra --"
def s158 : GoString := b!"// AssignmentProblem showcases error code field assignment not being"
def s159 : GoString := b!"// removed when using the remove annotation."
def s160 : GoString := b!"//    - assigned-error --"
def s161 : GoString := b!"//    - examples-error-arg-nil -- if the given value is nil"
def s162 : GoString := b!"//    - examples-error-invalid -- if the box already holds a value"
def s163 : GoString := b!"//    - examples-error-invalid -- if the box was empty"
def s164 : GoString := b!"// UseBoxImplAsBox converts BoxImpl to the interface Box,"
def s165 : GoString := b!"// showing that it can be used that way."
def s166 : GoString := b!"// UseBoxInvalidImplAsBox converts BoxInvalidImpl to the interface Box,"
def s167 : GoString := b!"// showing that the analyser flags this as a problem."
def s168 : GoString := b!"// NewError creates an Error with the given error code."
def s169 : GoString := b!"//    - param: code -- error code parameter"
def s170 : GoString := b!"// NewError3 creates an Error3 with the given error code."
def s171 : GoString := b!"//    - param: c               -- error code parameter, which is set if flag is true"
def s172 : GoString := b!"//    - param: errorCode       --"
def s173 : GoString := b!"//    - examples-error-invalid --"
def s174 : GoString := b!"//    - example-error-unreachable -- is never actually returned"
def s175 : GoString := b!"//    - examples-error-io         -- if a general io error occurs"
def s176 : GoString := b!"//    - examples-error-disconnect -- if the peer disconnected"
def s177 : GoString := b!"IO"
def s178 : GoString := b!"// Put makes the box store the given value."
def s179 : GoString := b!"//    - examples-error-unknown -- if an unexpected error occurred"
def s180 : GoString := b!"// Pop retrieves the value stored in the box and removes it from the box."
def s181 : GoString := b!"Box"
def s182 : GoString := b!"// Errors: none"
def s183 : GoString := b!"//    - examples-error-invalid -- in case of an invalid operation"
def s184 : GoString := b!"Box2"
def s185 : GoString := b!"EmbeddingBox"
def s186 : GoString := b!"Error3"
def s187 : GoString := b!"bool"
def s188 : GoString := b!"Collection"
def s189 : GoString := b!"int"
def s190 : GoString := b!"byte"
def s191 : GoString := b!"error"
def s192 : GoString := b!"MockedIO"
def s193 : GoString := b!"BoxImpl"
def s194 : GoString := b!"BoxInvalidImpl"
/-- 01_error_types.go:12: `func Error` -/
def f0 : FuncDef := ⟨4877, some ⟨4866, s0, none⟩, ⟨[], (some [⟨[], 4868⟩]), 181⟩, some [.ret 4875 [.selector 4874 (.ident ⟨4872, s1, (some 2)⟩)
  ⟨4873, s2, none⟩]], 188, 208⟩
/-- 01_error_types.go:13: `func Code` -/
def f1 : FuncDef := ⟨4894, some ⟨4883, s3, none⟩, ⟨[], (some [⟨[], 4885⟩]), 232⟩, some [.ret 4892 [.selector 4891 (.ident ⟨4889, s1, (some 3)⟩)
  ⟨4890, s2, none⟩]], 240, 260⟩
/-- 01_error_types.go:24: `func Error` -/
def f2 : FuncDef := ⟨4940, some ⟨4922, s0, none⟩, ⟨[], (some [⟨[], 4924⟩]), 601⟩, some [.ret 4938 [.call 4937 (.selector 4930 (.ident ⟨4928, s4,
  none⟩) ⟨4929, s5, none⟩) [.basicLit 4931, .call 4935 (.selector 4934 (.ident ⟨4932, s1, (some 9)⟩) ⟨4933, s3, none⟩) [], .ident ⟨4936, s1, (some
  9)⟩]]], 608, 653⟩
/-- 01_error_types.go:25: `func Code` -/
def f3 : FuncDef := ⟨4974, some ⟨4945, s3, none⟩, ⟨[], (some [⟨[], 4947⟩]), 677⟩, some [.other 4972 [.other 4971 [.caseClause 4956 [.other 4953
  [.ident ⟨4951, s1, (some 10)⟩, .basicLit 4952]] [.ret 4955 [.ident ⟨4954, s6, (some 6)⟩]], .caseClause 4967 [.call 4964 (.selector 4959 (.ident
  ⟨4957, s7, none⟩) ⟨4958, s8, none⟩) [.call 4962 (.ident ⟨4960, s9, none⟩) [.ident ⟨4961, s1, (some 10)⟩], .basicLit 4963]] [.ret 4966 [.ident
  ⟨4965, s10, (some 7)⟩]], .caseClause 4970 [] [.ret 4969 [.ident ⟨4968, s11, (some 8)⟩]]]]], 684, 849⟩
/-- 01_error_types.go:41: `func ReturnError2` -/
def f4 : FuncDef := ⟨4986, some ⟨4975, s12, (some 11)⟩, ⟨[], (some [⟨[], 4977⟩]), 996⟩, some [.ret 4984 [.call 4983 (.ident ⟨4981, s13, (some 4)⟩)
  [.basicLit 4982]]], 1003, 1143⟩
/-- 01_error_types.go:50: `func Error` -/
def f5 : FuncDef := ⟨5014, some ⟨5003, s0, none⟩, ⟨[], (some [⟨[], 5005⟩]), 1331⟩, some [.ret 5012 [.selector 5011 (.ident ⟨5009, s1, (some 15)⟩)
  ⟨5010, s14, none⟩]], 1338, 1355⟩
/-- 01_error_types.go:51: `func Code` -/
def f6 : FuncDef := ⟨5052, some ⟨5020, s3, none⟩, ⟨[], (some [⟨[], 5022⟩]), 1380⟩, some [.other 5036 [.selector 5028 (.ident ⟨5026, s1, (some 16)⟩)
  ⟨5027, s15, none⟩, .other 5035 [.assign 5034 [.selector 5032 (.ident ⟨5030, s1, (some 16)⟩) ⟨5031, s14, none⟩] [.basicLit 5033]]], .other 5046
  [.other 5041 [.selector 5039 (.ident ⟨5037, s1, (some 16)⟩) ⟨5038, s14, none⟩, .basicLit 5040], .other 5045 [.ret 5044 [.basicLit 5043]]], .ret
  5050 [.selector 5049 (.ident ⟨5047, s1, (some 16)⟩) ⟨5048, s14, none⟩]], 1387, 1513⟩
/-- 01_error_types.go:66: `func ReturnError3` -/
def f7 : FuncDef := ⟨5067, some ⟨5053, s16, (some 17)⟩, ⟨[], (some [⟨[], 5056⟩]), 1675⟩, some [.ret 5065 [.unary 5064 true (.compositeLit 5063
  [.ident ⟨5061, s17, none⟩, .basicLit 5062])]], 1683, 1855⟩
/-- 02_basic_examples.go:15: `func Add` -/
def f8 : FuncDef := ⟨5169, some ⟨5101, s18, none⟩, ⟨[⟨[⟨5102, s19, (some 22)⟩], 5104⟩], (some [⟨[], 5107⟩]), 2313⟩, some [.other 5121 [.other 5113
  [.ident ⟨5111, s19, (some 22)⟩, .ident ⟨5112, s20, none⟩], .other 5120 [.ret 5119 [.unary 5118 true (.compositeLit 5117 [.basicLit 5116])]]],
  .other 5138 [.other 5130 [.other 5124 [.ident ⟨5122, s21, (some 21)⟩, .ident ⟨5123, s20, none⟩], .other 5129 [.selector 5127 (.ident ⟨5125, s21,
  (some 21)⟩) ⟨5126, s22, none⟩, .basicLit 5128]], .other 5137 [.ret 5136 [.unary 5135 true (.compositeLit 5134 [.basicLit 5133])]]], .other 5155
  [.other 5147 [.call 5143 (.ident ⟨5139, s23, none⟩) [.selector 5142 (.ident ⟨5140, s21, (some 21)⟩) ⟨5141, s24, none⟩], .selector 5146 (.ident
  ⟨5144, s21, (some 21)⟩) ⟨5145, s22, none⟩], .other 5154 [.ret 5153 [.unary 5152 true (.compositeLit 5151 [.basicLit 5150])]]], .assign 5165
  [.selector 5158 (.ident ⟨5156, s21, (some 21)⟩) ⟨5157, s24, none⟩] [.call 5164 (.ident ⟨5159, s25, none⟩) [.selector 5162 (.ident ⟨5160, s21,
  (some 21)⟩) ⟨5161, s24, none⟩, .ident ⟨5163, s19, (some 22)⟩]], .ret 5167 [.ident ⟨5166, s20, none⟩]], 2319, 2723⟩
/-- 02_basic_examples.go:38: `func AddUnused` -/
def f9 : FuncDef := ⟨5190, some ⟨5175, s26, none⟩, ⟨[⟨[⟨5176, s19, (some 24)⟩], 5178⟩], (some [⟨[], 5181⟩]), 3105⟩, some [.other 5188 [.call 5187
  (.ident ⟨5185, s27, none⟩) [.basicLit 5186]]], 3111, 3454⟩
/-- 02_basic_examples.go:46: `func AddMissing` -/
def f10 : FuncDef := ⟨5264, some ⟨5196, s28, none⟩, ⟨[⟨[⟨5197, s19, (some 26)⟩], 5199⟩], (some [⟨[], 5202⟩]), 3590⟩, some [.other 5216 [.other 5208
  [.ident ⟨5206, s19, (some 26)⟩, .ident ⟨5207, s20, none⟩], .other 5215 [.ret 5214 [.unary 5213 true (.compositeLit 5212 [.basicLit 5211])]]],
  .other 5233 [.other 5225 [.other 5219 [.ident ⟨5217, s21, (some 25)⟩, .ident ⟨5218, s20, none⟩], .other 5224 [.selector 5222 (.ident ⟨5220, s21,
  (some 25)⟩) ⟨5221, s22, none⟩, .basicLit 5223]], .other 5232 [.ret 5231 [.unary 5230 true (.compositeLit 5229 [.basicLit 5228])]]], .other 5250
  [.other 5242 [.call 5238 (.ident ⟨5234, s23, none⟩) [.selector 5237 (.ident ⟨5235, s21, (some 25)⟩) ⟨5236, s24, none⟩], .selector 5241 (.ident
  ⟨5239, s21, (some 25)⟩) ⟨5240, s22, none⟩], .other 5249 [.ret 5248 [.unary 5247 true (.compositeLit 5246 [.basicLit 5245])]]], .assign 5260
  [.selector 5253 (.ident ⟨5251, s21, (some 25)⟩) ⟨5252, s24, none⟩] [.call 5259 (.ident ⟨5254, s25, none⟩) [.selector 5257 (.ident ⟨5255, s21,
  (some 25)⟩) ⟨5256, s24, none⟩, .ident ⟨5258, s19, (some 26)⟩]], .ret 5262 [.ident ⟨5261, s20, none⟩]], 3596, 4111⟩
/-- 02_basic_examples.go:73: `func AddAlt` -/
def f11 : FuncDef := ⟨5343, some ⟨5270, s29, none⟩, ⟨[⟨[⟨5271, s19, (some 28)⟩], 5273⟩], (some [⟨[], 5276⟩]), 4486⟩, some [.other 5284 [.other 5283
  [.valueSpec 5282 [⟨5280, s30, (some 29)⟩] (some 5281) []]], .other 5339 [.other 5338 [.caseClause 5294 [.other 5287 [.ident ⟨5285, s19, (some
  28)⟩, .ident ⟨5286, s20, none⟩]] [.assign 5293 [.ident ⟨5288, s30, (some 29)⟩] [.unary 5292 true (.compositeLit 5291 [.basicLit 5290])]],
  .caseClause 5310 [.other 5303 [.other 5297 [.ident ⟨5295, s21, (some 27)⟩, .ident ⟨5296, s20, none⟩], .other 5302 [.selector 5300 (.ident ⟨5298,
  s21, (some 27)⟩) ⟨5299, s22, none⟩, .basicLit 5301]]] [.assign 5309 [.ident ⟨5304, s30, (some 29)⟩] [.unary 5308 true (.compositeLit 5307
  [.basicLit 5306])]], .caseClause 5326 [.other 5319 [.call 5315 (.ident ⟨5311, s23, none⟩) [.selector 5314 (.ident ⟨5312, s21, (some 27)⟩) ⟨5313,
  s24, none⟩], .selector 5318 (.ident ⟨5316, s21, (some 27)⟩) ⟨5317, s22, none⟩]] [.assign 5325 [.ident ⟨5320, s30, (some 29)⟩] [.unary 5324 true
  (.compositeLit 5323 [.basicLit 5322])]], .caseClause 5337 [] [.assign 5336 [.selector 5329 (.ident ⟨5327, s21, (some 27)⟩) ⟨5328, s24, none⟩]
  [.call 5335 (.ident ⟨5330, s25, none⟩) [.selector 5333 (.ident ⟨5331, s21, (some 27)⟩) ⟨5332, s24, none⟩, .ident ⟨5334, s19, (some 28)⟩]]]]], .ret
  5341 [.ident ⟨5340, s30, (some 29)⟩]], 4492, 4928⟩
/-- 02_basic_examples.go:103: `func Read` -/
def f12 : FuncDef := ⟨5377, some ⟨5365, s31, none⟩, ⟨[], (some [⟨[], 5367⟩, ⟨[], 5368⟩]), 5401⟩, some [.ret 5375 [.basicLit 5373, .ident ⟨5374, s20,
  none⟩]], 5415, 5432⟩
/-- 03_error_code_origins.go:16: `func TypeConstruction` -/
def f13 : FuncDef := ⟨5428, some ⟨5393, s32, (some 33)⟩, ⟨[⟨[⟨5394, s33, (some 34)⟩, ⟨5395, s34, (some 35)⟩], 5396⟩], (some [⟨[], 5399⟩]), 5881⟩,
  some [.other 5411 [.ident ⟨5403, s33, (some 34)⟩, .other 5410 [.ret 5409 [.unary 5408 true (.compositeLit 5407 [.basicLit 5406])]]], .assign 5418
  [.ident ⟨5412, s30, (some 36)⟩] [.unary 5417 true (.compositeLit 5416 [.ident ⟨5414, s17, none⟩, .basicLit 5415])], .other 5424 [.ident ⟨5419,
  s34, (some 35)⟩, .other 5423 [.ret 5422 [.ident ⟨5421, s30, (some 36)⟩]]], .ret 5426 [.ident ⟨5425, s20, none⟩]], 5887, 6182⟩
/-- 03_error_code_origins.go:37: `func AssignmentToErrorCodeField` -/
def f14 : FuncDef := ⟨5476, some ⟨5429, s35, (some 37)⟩, ⟨[⟨[⟨5430, s36, (some 38)⟩], 5431⟩], (some [⟨[], 5434⟩]), 6499⟩, some [.assign 5443 [.ident
  ⟨5438, s30, (some 39)⟩] [.unary 5442 true (.compositeLit 5441 [.basicLit 5440])], .other 5472 [.ident ⟨5444, s36, (some 38)⟩, .other 5471
  [.caseClause 5452 [.basicLit 5446] [.assign 5451 [.selector 5449 (.ident ⟨5447, s30, (some 39)⟩) ⟨5448, s2, none⟩] [.basicLit 5450]], .caseClause
  5459 [.basicLit 5453] [.assign 5458 [.selector 5456 (.ident ⟨5454, s30, (some 39)⟩) ⟨5455, s2, none⟩] [.basicLit 5457]], .caseClause 5470 []
  [.assign 5469 [.selector 5462 (.ident ⟨5460, s30, (some 39)⟩) ⟨5461, s2, none⟩] [.call 5468 (.selector 5465 (.ident ⟨5463, s4, none⟩) ⟨5464, s5,
  none⟩) [.basicLit 5466, .ident ⟨5467, s36, (some 38)⟩]]]]], .ret 5474 [.ident ⟨5473, s30, (some 39)⟩]], 6505, 6974⟩
/-- 03_error_code_origins.go:58: `func FunctionCall` -/
def f15 : FuncDef := ⟨5488, some ⟨5477, s37, (some 40)⟩, ⟨[], (some [⟨[], 5479⟩]), 7239⟩, some [.ret 5486 [.call 5485 (.ident ⟨5483, s38, (some
  41)⟩) [.basicLit 5484]]], 7245, 7364⟩
/-- 03_error_code_origins.go:66: `func TryOpen` -/
def f16 : FuncDef := ⟨5515, some ⟨5489, s38, (some 41)⟩, ⟨[⟨[⟨5490, s39, (some 42)⟩], 5491⟩], (some [⟨[], 5494⟩]), 7526⟩, some [.other 5508 [.other
  5500 [.ident ⟨5498, s39, (some 42)⟩, .basicLit 5499], .other 5507 [.ret 5506 [.unary 5505 true (.compositeLit 5504 [.basicLit 5503])]]], .ret 5513
  [.unary 5512 true (.compositeLit 5511 [.basicLit 5510])]], 7532, 7737⟩
/-- 04_annotations.go:9: `func Overwrite` -/
def f17 : FuncDef := ⟨5549, some ⟨5537, s40, (some 43)⟩, ⟨[], (some [⟨[], 5539⟩]), 8019⟩, some [.ret 5547 [.unary 5546 true (.compositeLit 5545
  [.basicLit 5544])]], 8025, 8173⟩
/-- 04_annotations.go:21: `func OverwriteMultiple` -/
def f18 : FuncDef := ⟨5578, some ⟨5550, s41, (some 44)⟩, ⟨[⟨[⟨5551, s43, (some 45)⟩], 5552⟩], (some [⟨[], 5555⟩]), 8457⟩, some [.assign 5572 [.ident
  ⟨5559, s42, (some 46)⟩] [.compositeLit 5571 [.ident ⟨5562, s20, none⟩, .unary 5566 true (.compositeLit 5565 [.basicLit 5564]), .unary 5570 true
  (.compositeLit 5569 [.basicLit 5568])]], .ret 5576 [.index 5575 (.ident ⟨5573, s42, (some 46)⟩) (.ident ⟨5574, s43, (some 45)⟩)]], 8463, 8717⟩
/-- 04_annotations.go:36: `func MultipleCodes` -/
def f19 : FuncDef := ⟨5612, some ⟨5579, s44, (some 47)⟩, ⟨[], (some [⟨[], 5582⟩]), 8850⟩, some [.other 5608 [.other 5607 [.caseClause 5592 [.ident
  ⟨5586, s45, none⟩] [.ret 5591 [.unary 5590 true (.compositeLit 5589 [.basicLit 5588])]], .caseClause 5599 [.ident ⟨5593, s45, none⟩] [.ret 5598
  [.unary 5597 true (.compositeLit 5596 [.basicLit 5595])]], .caseClause 5606 [.ident ⟨5600, s45, none⟩] [.ret 5605 [.unary 5604 true (.compositeLit
  5603 [.basicLit 5602])]]]], .ret 5610 [.ident ⟨5609, s20, none⟩]], 8857, 9132⟩
/-- 04_annotations.go:48: `func HandleErrorOne` -/
def f20 : FuncDef := ⟨5621, some ⟨5613, s46, (some 48)⟩, ⟨[⟨[⟨5614, s30, (some 49)⟩], 5616⟩], none, 0⟩, some [], 9166, 9179⟩
/-- 04_annotations.go:57: `func SubtractCode` -/
def f21 : FuncDef := ⟨5655, some ⟨5622, s47, (some 50)⟩, ⟨[], (some [⟨[], 5624⟩]), 9419⟩, some [.other 5653 [.assign 5631 [.ident ⟨5628, s30, (some
  51)⟩] [.call 5630 (.ident ⟨5629, s44, (some 47)⟩) []], .call 5635 (.selector 5634 (.ident ⟨5632, s30, (some 51)⟩) ⟨5633, s3, none⟩) [], .other
  5652 [.caseClause 5640 [.basicLit 5637] [.ret 5639 [.ident ⟨5638, s20, none⟩]], .caseClause 5648 [.basicLit 5641] [.other 5645 [.call 5644 (.ident
  ⟨5642, s46, (some 48)⟩) [.ident ⟨5643, s30, (some 51)⟩]], .ret 5647 [.ident ⟨5646, s20, none⟩]], .caseClause 5651 [] [.ret 5650 [.ident ⟨5649,
  s30, (some 51)⟩]]]]], 9425, 9744⟩
/-- 04_annotations.go:74: `func AddSubCode` -/
def f22 : FuncDef := ⟨5669, some ⟨5656, s48, (some 52)⟩, ⟨[], (some [⟨[], 5658⟩]), 9842⟩, some [.assign 5665 [.ident ⟨5662, s30, (some 53)⟩] [.call
  5664 (.ident ⟨5663, s44, (some 47)⟩) []], .ret 5667 [.ident ⟨5666, s30, (some 53)⟩]], 9848, 10040⟩
/-- 04_annotations.go:86: `func AssignmentProblem` -/
def f23 : FuncDef := ⟨5689, some ⟨5670, s49, (some 54)⟩, ⟨[], (some [⟨[], 5672⟩]), 10224⟩, some [.assign 5680 [.ident ⟨5676, s30, (some 55)⟩]
  [.unary 5679 true (.compositeLit 5678 [])], .assign 5685 [.selector 5683 (.ident ⟨5681, s30, (some 55)⟩) ⟨5682, s2, none⟩] [.basicLit 5684], .ret
  5687 [.ident ⟨5686, s30, (some 55)⟩]], 10230, 10383⟩
/-- 05_interfaces.go:29: `func Put` -/
def f24 : FuncDef := ⟨5801, some ⟨5755, s50, none⟩, ⟨[⟨[⟨5756, s51, (some 63)⟩], 5758⟩], (some [⟨[], 5761⟩]), 11292⟩, some [.other 5775 [.other 5767
  [.ident ⟨5765, s51, (some 63)⟩, .ident ⟨5766, s20, none⟩], .other 5774 [.ret 5773 [.unary 5772 true (.compositeLit 5771 [.basicLit 5770])]]],
  .other 5792 [.other 5784 [.other 5778 [.ident ⟨5776, s52, (some 62)⟩, .ident ⟨5777, s20, none⟩], .other 5783 [.selector 5781 (.ident ⟨5779, s52,
  (some 62)⟩) ⟨5780, s51, none⟩, .ident ⟨5782, s20, none⟩]], .other 5791 [.ret 5790 [.unary 5789 true (.compositeLit 5788 [.basicLit 5787])]]],
  .assign 5797 [.selector 5795 (.ident ⟨5793, s52, (some 62)⟩) ⟨5794, s51, none⟩] [.ident ⟨5796, s51, (some 63)⟩], .ret 5799 [.ident ⟨5798, s20,
  none⟩]], 11298, 11546⟩
/-- 05_interfaces.go:45: `func Pop` -/
def f25 : FuncDef := ⟨5845, some ⟨5807, s53, none⟩, ⟨[], (some [⟨[], 5810⟩, ⟨[], 5811⟩]), 11641⟩, some [.other 5833 [.other 5824 [.other 5818
  [.ident ⟨5816, s52, (some 64)⟩, .ident ⟨5817, s20, none⟩], .other 5823 [.selector 5821 (.ident ⟨5819, s52, (some 64)⟩) ⟨5820, s51, none⟩, .ident
  ⟨5822, s20, none⟩]], .other 5832 [.ret 5831 [.ident ⟨5826, s20, none⟩, .unary 5830 true (.compositeLit 5829 [.basicLit 5828])]]], .assign 5838
  [.selector 5836 (.ident ⟨5834, s52, (some 64)⟩) ⟨5835, s51, none⟩] [.ident ⟨5837, s20, none⟩], .ret 5843 [.selector 5841 (.ident ⟨5839, s52, (some
  64)⟩) ⟨5840, s51, none⟩, .ident ⟨5842, s20, none⟩]], 11662, 11834⟩
/-- 05_interfaces.go:56: `func UseBoxImplAsBox` -/
def f26 : FuncDef := ⟨5864, some ⟨5846, s54, (some 65)⟩, ⟨[], none, 0⟩, some [.other 5856 [.other 5855 [.valueSpec 5854 [⟨5849, s52, (some 66)⟩]
  (some 5850) [.unary 5853 true (.compositeLit 5852 [])]]], .other 5862 [.call 5861 (.selector 5859 (.ident ⟨5857, s52, (some 66)⟩) ⟨5858, s50,
  none⟩) [.ident ⟨5860, s52, (some 66)⟩]]], 11958, 11995⟩
/-- 05_interfaces.go:66: `func Put` -/
def f27 : FuncDef := ⟨5891, some ⟨5875, s50, none⟩, ⟨[⟨[⟨5876, s51, (some 69)⟩], 5878⟩], (some [⟨[], 5881⟩]), 12131⟩, some [.ret 5889 [.unary 5888
  true (.compositeLit 5887 [.basicLit 5886])]], 12137, 12246⟩
/-- 05_interfaces.go:73: `func Pop` -/
def f28 : FuncDef := ⟨5913, some ⟨5897, s53, none⟩, ⟨[], (some [⟨[], 5900⟩, ⟨[], 5901⟩]), 12335⟩, some [.ret 5911 [.ident ⟨5906, s20, none⟩, .unary
  5910 true (.compositeLit 5909 [.basicLit 5908])]], 12356, 12470⟩
/-- 05_interfaces.go:79: `func UseBoxInvalidImplAsBox` -/
def f29 : FuncDef := ⟨5932, some ⟨5914, s55, (some 71)⟩, ⟨[], none, 0⟩, some [.other 5924 [.other 5923 [.valueSpec 5922 [⟨5917, s52, (some 72)⟩]
  (some 5918) [.unary 5921 true (.compositeLit 5920 [])]]], .other 5930 [.call 5929 (.selector 5927 (.ident ⟨5925, s52, (some 72)⟩) ⟨5926, s50,
  none⟩) [.ident ⟨5928, s52, (some 72)⟩]]], 12628, 13011⟩
/-- 06_error_constructors.go:8: `func NewError` -/
def f30 : FuncDef := ⟨5994, some ⟨5978, s56, (some 78)⟩, ⟨[⟨[⟨5979, s14, (some 79)⟩], 5980⟩], (some [⟨[], 5984⟩]), 13889⟩, some [.ret 5992 [.unary
  5991 true (.compositeLit 5990 [.ident ⟨5989, s14, (some 79)⟩])]], 13896, 14002⟩
/-- 06_error_constructors.go:19: `func NewError3` -/
def f31 : FuncDef := ⟨6027, some ⟨5995, s57, (some 80)⟩, ⟨[⟨[⟨5996, s15, (some 81)⟩], 5997⟩, ⟨[⟨5998, s21, (some 82)⟩], 5999⟩], (some [⟨[], 6004⟩]),
  14268⟩, some [.assign 6014 [.ident ⟨6008, s30, (some 83)⟩] [.unary 6013 true (.compositeLit 6012 [.ident ⟨6010, s15, (some 81)⟩, .basicLit
  6011])], .other 6023 [.ident ⟨6015, s15, (some 81)⟩, .other 6022 [.assign 6021 [.selector 6019 (.ident ⟨6017, s30, (some 83)⟩) ⟨6018, s14, none⟩]
  [.ident ⟨6020, s21, (some 82)⟩]]], .ret 6025 [.ident ⟨6024, s30, (some 83)⟩]], 14276, 14498⟩
/-- 06_error_constructors.go:30: `func CallConstructor` -/
def f32 : FuncDef := ⟨6039, some ⟨6028, s58, (some 84)⟩, ⟨[], (some [⟨[], 6030⟩]), 14579⟩, some [.ret 6037 [.call 6036 (.ident ⟨6034, s56, (some
  78)⟩) [.basicLit 6035]]], 14585, 14708⟩
/-- 06_error_constructors.go:39: `func NewGeneralError` -/
def f33 : FuncDef := ⟨6066, some ⟨6040, s59, (some 85)⟩, ⟨[⟨[⟨6041, s15, (some 86)⟩], 6042⟩, ⟨[⟨6043, s60, (some 87)⟩], 6044⟩], (some [⟨[], 6048⟩]),
  14876⟩, some [.other 6060 [.ident ⟨6052, s15, (some 86)⟩, .other 6059 [.ret 6058 [.call 6057 (.ident ⟨6054, s57, (some 80)⟩) [.ident ⟨6055, s15,
  (some 86)⟩, .ident ⟨6056, s60, (some 87)⟩]]]], .ret 6064 [.call 6063 (.ident ⟨6061, s56, (some 78)⟩) [.ident ⟨6062, s60, (some 87)⟩]]], 14882,
  15105⟩
/-- 07_limitations.go:6: `func CallModifyError` -/
def f34 : FuncDef := ⟨6093, some ⟨6074, s61, (some 88)⟩, ⟨[], (some [⟨[], 6076⟩]), 15205⟩, some [.assign 6085 [.ident ⟨6080, s30, (some 89)⟩]
  [.unary 6084 true (.compositeLit 6083 [.basicLit 6082])], .other 6089 [.call 6088 (.ident ⟨6086, s62, (some 90)⟩) [.ident ⟨6087, s30, (some
  89)⟩]], .ret 6091 [.ident ⟨6090, s30, (some 89)⟩]], 15211, 15346⟩
/-- 07_limitations.go:12: `func ModifyError` -/
def f35 : FuncDef := ⟨6107, some ⟨6094, s62, (some 90)⟩, ⟨[⟨[⟨6095, s30, (some 91)⟩], 6097⟩], none, 0⟩, some [.assign 6105 [.selector 6103 (.ident
  ⟨6101, s30, (some 91)⟩) ⟨6102, s2, none⟩] [.basicLit 6104]], 15377, 15416⟩
/-- 07_limitations.go:19: `func DeadBranchError` -/
def f36 : FuncDef := ⟨6126, some ⟨6108, s63, (some 92)⟩, ⟨[], (some [⟨[], 6110⟩]), 15519⟩, some [.other 6122 [.ident ⟨6114, s17, none⟩, .other 6121
  [.ret 6120 [.unary 6119 true (.compositeLit 6118 [.basicLit 6117])]]], .ret 6124 [.ident ⟨6123, s20, none⟩]], 15525, 15664⟩
/-- 07_limitations.go:26: `func ErrorNotLast` -/
def f37 : FuncDef := ⟨6139, some ⟨6127, s64, (some 93)⟩, ⟨[], (some [⟨[], 6129⟩, ⟨[], 6130⟩]), 15686⟩, some [.ret 6137 [.ident ⟨6135, s20, none⟩,
  .basicLit 6136]], 15702, 15777⟩
/-- The objects of go/ast, in the order of their numbers. -/
def objects : List ObjInfo := [
  ⟨.typ, 53, .typeSpec⟩,
  ⟨.var, 139, .other⟩,
  ⟨.var, 163, .other⟩,
  ⟨.var, 215, .other⟩,
  ⟨.typ, 267, .typeSpec⟩,
  ⟨.con, 408, (.valueSpec [⟨4899, s65, (some 5)⟩] [.basicLit 4900])⟩,
  ⟨.con, 445, (.valueSpec [⟨4902, s6, (some 6)⟩] [.other 4905 [.ident ⟨4903, s65, (some 5)⟩, .basicLit 4904]])⟩,
  ⟨.con, 486, (.valueSpec [⟨4907, s10, (some 7)⟩] [.other 4910 [.ident ⟨4908, s65, (some 5)⟩, .basicLit 4909]])⟩,
  ⟨.con, 532, (.valueSpec [⟨4912, s11, (some 8)⟩] [.other 4915 [.ident ⟨4913, s65, (some 5)⟩, .basicLit 4914]])⟩,
  ⟨.var, 583, .other⟩,
  ⟨.var, 660, .other⟩,
  ⟨.fun_, 981, (.funcDecl 4)⟩,
  ⟨.typ, 1150, .typeSpec⟩,
  ⟨.var, 1280, .other⟩,
  ⟨.var, 1291, .other⟩,
  ⟨.var, 1312, .other⟩,
  ⟨.var, 1362, .other⟩,
  ⟨.fun_, 1660, (.funcDecl 7)⟩,
  ⟨.typ, 1889, .typeSpec⟩,
  ⟨.var, 1910, .other⟩,
  ⟨.var, 1932, .other⟩,
  ⟨.var, 2276, .other⟩,
  ⟨.var, 2295, .other⟩,
  ⟨.var, 3062, .other⟩,
  ⟨.var, 3087, .other⟩,
  ⟨.var, 3546, .other⟩,
  ⟨.var, 3572, .other⟩,
  ⟨.var, 4446, .other⟩,
  ⟨.var, 4468, .other⟩,
  ⟨.var, 4618, (.valueSpec [⟨5280, s30, (some 29)⟩] [])⟩,
  ⟨.typ, 4938, .typeSpec⟩,
  ⟨.fun_, 5139, .other⟩,
  ⟨.typ, 5235, .typeSpec⟩,
  ⟨.fun_, 5845, (.funcDecl 13)⟩,
  ⟨.var, 5862, .other⟩,
  ⟨.var, 5869, .other⟩,
  ⟨.var, 6094, .other⟩,
  ⟨.fun_, 6463, (.funcDecl 14)⟩,
  ⟨.var, 6490, .other⟩,
  ⟨.var, 6618, .other⟩,
  ⟨.fun_, 7224, (.funcDecl 15)⟩,
  ⟨.fun_, 7501, (.funcDecl 16)⟩,
  ⟨.var, 7509, .other⟩,
  ⟨.fun_, 8007, (.funcDecl 17)⟩,
  ⟨.fun_, 8428, (.funcDecl 18)⟩,
  ⟨.var, 8446, .other⟩,
  ⟨.var, 8544, .other⟩,
  ⟨.fun_, 8834, (.funcDecl 19)⟩,
  ⟨.fun_, 9139, (.funcDecl 20)⟩,
  ⟨.var, 9154, .other⟩,
  ⟨.fun_, 9404, (.funcDecl 21)⟩,
  ⟨.var, 9510, .other⟩,
  ⟨.fun_, 9829, (.funcDecl 22)⟩,
  ⟨.var, 9924, .other⟩,
  ⟨.fun_, 10204, (.funcDecl 23)⟩,
  ⟨.var, 10288, .other⟩,
  ⟨.typ, 10417, .typeSpec⟩,
  ⟨.fun_, 10733, .other⟩,
  ⟨.var, 10737, .other⟩,
  ⟨.fun_, 10987, .other⟩,
  ⟨.typ, 11071, .typeSpec⟩,
  ⟨.var, 11089, .other⟩,
  ⟨.var, 11257, .other⟩,
  ⟨.var, 11273, .other⟩,
  ⟨.var, 11623, .other⟩,
  ⟨.fun_, 11940, (.funcDecl 26)⟩,
  ⟨.var, 11965, (.valueSpec [⟨5849, s52, (some 66)⟩] [.unary 5853 true (.compositeLit 5852 [])])⟩,
  ⟨.typ, 12002, .typeSpec⟩,
  ⟨.var, 12089, .other⟩,
  ⟨.var, 12112, .other⟩,
  ⟨.var, 12310, .other⟩,
  ⟨.fun_, 12603, (.funcDecl 29)⟩,
  ⟨.var, 12635, (.valueSpec [⟨5917, s52, (some 72)⟩] [.unary 5921 true (.compositeLit 5920 [])])⟩,
  ⟨.typ, 13018, .typeSpec⟩,
  ⟨.fun_, 13141, .other⟩,
  ⟨.var, 13145, .other⟩,
  ⟨.fun_, 13360, .other⟩,
  ⟨.typ, 13444, .typeSpec⟩,
  ⟨.fun_, 13867, (.funcDecl 30)⟩,
  ⟨.var, 13876, .other⟩,
  ⟨.fun_, 14237, (.funcDecl 31)⟩,
  ⟨.var, 14247, .other⟩,
  ⟨.var, 14258, .other⟩,
  ⟨.var, 14409, .other⟩,
  ⟨.fun_, 14561, (.funcDecl 32)⟩,
  ⟨.fun_, 14831, (.funcDecl 33)⟩,
  ⟨.var, 14847, .other⟩,
  ⟨.var, 14858, .other⟩,
  ⟨.fun_, 15187, (.funcDecl 34)⟩,
  ⟨.var, 15275, .other⟩,
  ⟨.fun_, 15353, (.funcDecl 35)⟩,
  ⟨.var, 15365, .other⟩,
  ⟨.fun_, 15501, (.funcDecl 36)⟩,
  ⟨.fun_, 15671, (.funcDecl 37)⟩]
/-- Types of expressions (`Info.Types`, `Info.Defs`, `Info.Uses`). -/
def typeTable : Tree GoType := (.node (.node (.node (.node (.node (.node (.node (.node (.node (.node Tree.nil 4853 (.named 539) Tree.nil) 4854
  (.string) Tree.nil) 4855 (.string) (.node (.node Tree.nil 4858 (.struct 1) Tree.nil) 4861 (.pointer (.named 539)) Tree.nil)) 4862 (.named 539)
  (.node (.node (.node Tree.nil 4863 (.pointer (.named 539)) Tree.nil) 4866 (.signature 11) Tree.nil) 4868 (.string) (.node Tree.nil 4871
  (.signature 11) Tree.nil))) 4872 (.pointer (.named 539)) (.node (.node (.node (.node Tree.nil 4873 (.string) Tree.nil) 4874 (.string) Tree.nil)
  4878 (.pointer (.named 539)) (.node (.node Tree.nil 4879 (.named 539) Tree.nil) 4880 (.pointer (.named 539)) Tree.nil)) 4883 (.signature 11)
  (.node (.node (.node Tree.nil 4885 (.string) Tree.nil) 4888 (.signature 11) Tree.nil) 4889 (.pointer (.named 539)) (.node Tree.nil 4890 (.string)
  Tree.nil)))) 4891 (.string) (.node (.node (.node (.node (.node Tree.nil 4895 (.named 542) Tree.nil) 4896 (.string) Tree.nil) 4899 (.other 31)
  (.node (.node Tree.nil 4900 (.other 31) Tree.nil) 4902 (.other 31) Tree.nil)) 4903 (.other 31) (.node (.node (.node Tree.nil 4904 (.other 31)
  Tree.nil) 4905 (.other 31) Tree.nil) 4907 (.other 31) (.node Tree.nil 4908 (.other 31) Tree.nil))) 4909 (.other 31) (.node (.node (.node (.node
  Tree.nil 4910 (.other 31) Tree.nil) 4912 (.other 31) Tree.nil) 4913 (.other 31) (.node (.node Tree.nil 4914 (.other 31) Tree.nil) 4915 (.other 31)
  Tree.nil)) 4918 (.named 542) (.node (.node (.node Tree.nil 4919 (.named 542) Tree.nil) 4922 (.signature 11) Tree.nil) 4924 (.string) (.node
  Tree.nil 4927 (.signature 11) Tree.nil))))) 4929 (.signature 49) (.node (.node (.node (.node (.node (.node Tree.nil 4930 (.signature 49) Tree.nil)
  4931 (.string) Tree.nil) 4932 (.named 542) (.node (.node Tree.nil 4933 (.signature 11) Tree.nil) 4934 (.signature 11) Tree.nil)) 4935 (.string)
  (.node (.node (.node Tree.nil 4936 (.named 542) Tree.nil) 4937 (.string) Tree.nil) 4941 (.named 542) (.node Tree.nil 4942 (.named 542) Tree.nil)))
  4945 (.signature 11) (.node (.node (.node (.node Tree.nil 4947 (.string) Tree.nil) 4950 (.signature 11) Tree.nil) 4951 (.named 542) (.node (.node
  Tree.nil 4952 (.named 542) Tree.nil) 4953 (.other 10) Tree.nil)) 4954 (.string) (.node (.node (.node Tree.nil 4958 (.signature 50) Tree.nil) 4959
  (.signature 50) Tree.nil) 4960 (.string) (.node Tree.nil 4961 (.named 542) Tree.nil)))) 4962 (.string) (.node (.node (.node (.node (.node Tree.nil
  4963 (.string) Tree.nil) 4964 (.other 10) Tree.nil) 4965 (.string) (.node (.node Tree.nil 4968 (.string) Tree.nil) 4975 (.signature 51) Tree.nil))
  4977 (.named 542) (.node (.node (.node Tree.nil 4980 (.signature 51) Tree.nil) 4981 (.named 542) Tree.nil) 4982 (.named 542) (.node Tree.nil 4983
  (.named 542) Tree.nil))) 4987 (.named 550) (.node (.node (.node (.node Tree.nil 4988 (.other 10) Tree.nil) 4989 (.other 10) Tree.nil) 4991
  (.string) (.node (.node Tree.nil 4992 (.string) Tree.nil) 4995 (.struct 48) Tree.nil)) 4998 (.pointer (.named 550)) (.node (.node (.node Tree.nil
  4999 (.named 550) Tree.nil) 5000 (.pointer (.named 550)) Tree.nil) 5003 (.signature 11) (.node Tree.nil 5005 (.string) Tree.nil)))))) 5008
  (.signature 11) (.node (.node (.node (.node (.node (.node (.node Tree.nil 5009 (.pointer (.named 550)) Tree.nil) 5010 (.string) Tree.nil) 5011
  (.string) (.node (.node Tree.nil 5015 (.pointer (.named 550)) Tree.nil) 5016 (.named 550) Tree.nil)) 5017 (.pointer (.named 550)) (.node (.node
  (.node Tree.nil 5020 (.signature 11) Tree.nil) 5022 (.string) Tree.nil) 5025 (.signature 11) (.node Tree.nil 5026 (.pointer (.named 550))
  Tree.nil))) 5027 (.other 10) (.node (.node (.node (.node Tree.nil 5028 (.other 10) Tree.nil) 5030 (.pointer (.named 550)) Tree.nil) 5031 (.string)
  (.node (.node Tree.nil 5032 (.string) Tree.nil) 5033 (.string) Tree.nil)) 5037 (.pointer (.named 550)) (.node (.node (.node Tree.nil 5038
  (.string) Tree.nil) 5039 (.string) Tree.nil) 5040 (.string) (.node Tree.nil 5041 (.other 10) Tree.nil)))) 5043 (.string) (.node (.node (.node
  (.node (.node Tree.nil 5047 (.pointer (.named 550)) Tree.nil) 5048 (.string) Tree.nil) 5049 (.string) (.node (.node Tree.nil 5053 (.signature 52)
  Tree.nil) 5055 (.named 550) Tree.nil)) 5056 (.pointer (.named 550)) (.node (.node (.node Tree.nil 5059 (.signature 52) Tree.nil) 5060 (.named 550)
  Tree.nil) 5061 (.other 10) (.node Tree.nil 5062 (.string) Tree.nil))) 5063 (.named 550) (.node (.node (.node (.node Tree.nil 5064 (.pointer
  (.named 550)) Tree.nil) 5083 (.named 554) Tree.nil) 5084 (.slice (.interface 3)) (.node (.node Tree.nil 5086 (.interface 3) Tree.nil) 5087 (.slice
  (.interface 3)) Tree.nil)) 5089 (.other 8) (.node (.node (.node Tree.nil 5090 (.other 8) Tree.nil) 5093 (.struct 44) Tree.nil) 5096 (.pointer
  (.named 554)) (.node Tree.nil 5097 (.named 554) Tree.nil))))) 5098 (.pointer (.named 554)) (.node (.node (.node (.node (.node (.node Tree.nil 5101
  (.signature 53) Tree.nil) 5102 (.interface 3) Tree.nil) 5104 (.interface 3) (.node (.node Tree.nil 5107 (.named 19) Tree.nil) 5110 (.signature 53)
  Tree.nil)) 5111 (.interface 3) (.node (.node (.node Tree.nil 5112 (.untypedNil) Tree.nil) 5113 (.other 10) Tree.nil) 5115 (.named 539) (.node
  Tree.nil 5116 (.string) Tree.nil))) 5117 (.named 539) (.node (.node (.node (.node Tree.nil 5118 (.pointer (.named 539)) Tree.nil) 5122 (.pointer
  (.named 554)) Tree.nil) 5123 (.untypedNil) (.node (.node Tree.nil 5124 (.other 10) Tree.nil) 5125 (.pointer (.named 554)) Tree.nil)) 5126 (.other
  8) (.node (.node (.node Tree.nil 5127 (.other 8) Tree.nil) 5128 (.other 8) Tree.nil) 5129 (.other 10) (.node Tree.nil 5130 (.other 10)
  Tree.nil)))) 5132 (.named 539) (.node (.node (.node (.node (.node Tree.nil 5133 (.string) Tree.nil) 5134 (.named 539) Tree.nil) 5135 (.pointer
  (.named 539)) (.node (.node Tree.nil 5139 (.signature 54) Tree.nil) 5140 (.pointer (.named 554)) Tree.nil)) 5141 (.slice (.interface 3)) (.node
  (.node (.node Tree.nil 5142 (.slice (.interface 3)) Tree.nil) 5143 (.other 8) Tree.nil) 5144 (.pointer (.named 554)) (.node Tree.nil 5145 (.other
  8) Tree.nil))) 5146 (.other 8) (.node (.node (.node (.node Tree.nil 5147 (.other 10) Tree.nil) 5149 (.named 539) Tree.nil) 5150 (.string) (.node
  (.node Tree.nil 5151 (.named 539) Tree.nil) 5152 (.pointer (.named 539)) Tree.nil)) 5156 (.pointer (.named 554)) (.node (.node (.node Tree.nil
  5157 (.slice (.interface 3)) Tree.nil) 5158 (.slice (.interface 3)) Tree.nil) 5159 (.signature 55) (.node Tree.nil 5160 (.pointer (.named 554))
  Tree.nil))))))) 5161 (.slice (.interface 3)) (.node (.node (.node (.node (.node (.node (.node (.node Tree.nil 5162 (.slice (.interface 3))
  Tree.nil) 5163 (.interface 3) Tree.nil) 5164 (.slice (.interface 3)) (.node (.node Tree.nil 5166 (.untypedNil) Tree.nil) 5170 (.pointer (.named
  554)) Tree.nil)) 5171 (.named 554) (.node (.node (.node Tree.nil 5172 (.pointer (.named 554)) Tree.nil) 5175 (.signature 53) Tree.nil) 5176
  (.interface 3) (.node Tree.nil 5178 (.interface 3) Tree.nil))) 5181 (.named 19) (.node (.node (.node (.node Tree.nil 5184 (.signature 53)
  Tree.nil) 5185 (.signature 57) Tree.nil) 5186 (.string) (.node (.node Tree.nil 5187 (.tuple 56) Tree.nil) 5191 (.pointer (.named 554)) Tree.nil))
  5192 (.named 554) (.node (.node (.node Tree.nil 5193 (.pointer (.named 554)) Tree.nil) 5196 (.signature 53) Tree.nil) 5197 (.interface 3) (.node
  Tree.nil 5199 (.interface 3) Tree.nil)))) 5202 (.named 19) (.node (.node (.node (.node (.node Tree.nil 5205 (.signature 53) Tree.nil) 5206
  (.interface 3) Tree.nil) 5207 (.untypedNil) (.node (.node Tree.nil 5208 (.other 10) Tree.nil) 5210 (.named 539) Tree.nil)) 5211 (.string) (.node
  (.node (.node Tree.nil 5212 (.named 539) Tree.nil) 5213 (.pointer (.named 539)) Tree.nil) 5217 (.pointer (.named 554)) (.node Tree.nil 5218
  (.untypedNil) Tree.nil))) 5219 (.other 10) (.node (.node (.node (.node Tree.nil 5220 (.pointer (.named 554)) Tree.nil) 5221 (.other 8) Tree.nil)
  5222 (.other 8) (.node (.node Tree.nil 5223 (.other 8) Tree.nil) 5224 (.other 10) Tree.nil)) 5225 (.other 10) (.node (.node (.node Tree.nil 5227
  (.named 539) Tree.nil) 5228 (.string) Tree.nil) 5229 (.named 539) (.node Tree.nil 5230 (.pointer (.named 539)) Tree.nil))))) 5234 (.signature 54)
  (.node (.node (.node (.node (.node (.node Tree.nil 5235 (.pointer (.named 554)) Tree.nil) 5236 (.slice (.interface 3)) Tree.nil) 5237 (.slice
  (.interface 3)) (.node (.node Tree.nil 5238 (.other 8) Tree.nil) 5239 (.pointer (.named 554)) Tree.nil)) 5240 (.other 8) (.node (.node (.node
  Tree.nil 5241 (.other 8) Tree.nil) 5242 (.other 10) Tree.nil) 5244 (.named 539) (.node Tree.nil 5245 (.string) Tree.nil))) 5246 (.named 539)
  (.node (.node (.node (.node Tree.nil 5247 (.pointer (.named 539)) Tree.nil) 5251 (.pointer (.named 554)) Tree.nil) 5252 (.slice (.interface 3))
  (.node (.node Tree.nil 5253 (.slice (.interface 3)) Tree.nil) 5254 (.signature 55) Tree.nil)) 5255 (.pointer (.named 554)) (.node (.node (.node
  Tree.nil 5256 (.slice (.interface 3)) Tree.nil) 5257 (.slice (.interface 3)) Tree.nil) 5258 (.interface 3) (.node Tree.nil 5259 (.slice
  (.interface 3)) Tree.nil)))) 5261 (.untypedNil) (.node (.node (.node (.node (.node Tree.nil 5265 (.pointer (.named 554)) Tree.nil) 5266 (.named
  554) Tree.nil) 5267 (.pointer (.named 554)) (.node (.node Tree.nil 5270 (.signature 53) Tree.nil) 5271 (.interface 3) Tree.nil)) 5273 (.interface
  3) (.node (.node (.node Tree.nil 5276 (.named 19) Tree.nil) 5279 (.signature 53) Tree.nil) 5280 (.named 19) (.node Tree.nil 5281 (.named 19)
  Tree.nil))) 5285 (.interface 3) (.node (.node (.node (.node Tree.nil 5286 (.untypedNil) Tree.nil) 5287 (.other 10) Tree.nil) 5288 (.named 19)
  (.node (.node Tree.nil 5289 (.named 539) Tree.nil) 5290 (.string) Tree.nil)) 5291 (.named 539) (.node (.node (.node Tree.nil 5292 (.pointer
  (.named 539)) Tree.nil) 5295 (.pointer (.named 554)) Tree.nil) 5296 (.untypedNil) (.node Tree.nil 5297 (.other 10) Tree.nil)))))) 5298 (.pointer
  (.named 554)) (.node (.node (.node (.node (.node (.node (.node Tree.nil 5299 (.other 8) Tree.nil) 5300 (.other 8) Tree.nil) 5301 (.other 8) (.node
  (.node Tree.nil 5302 (.other 10) Tree.nil) 5303 (.other 10) Tree.nil)) 5304 (.named 19) (.node (.node (.node Tree.nil 5305 (.named 539) Tree.nil)
  5306 (.string) Tree.nil) 5307 (.named 539) (.node Tree.nil 5308 (.pointer (.named 539)) Tree.nil))) 5311 (.signature 54) (.node (.node (.node
  (.node Tree.nil 5312 (.pointer (.named 554)) Tree.nil) 5313 (.slice (.interface 3)) Tree.nil) 5314 (.slice (.interface 3)) (.node (.node Tree.nil
  5315 (.other 8) Tree.nil) 5316 (.pointer (.named 554)) Tree.nil)) 5317 (.other 8) (.node (.node (.node Tree.nil 5318 (.other 8) Tree.nil) 5319
  (.other 10) Tree.nil) 5320 (.named 19) (.node Tree.nil 5321 (.named 539) Tree.nil)))) 5322 (.string) (.node (.node (.node (.node (.node Tree.nil
  5323 (.named 539) Tree.nil) 5324 (.pointer (.named 539)) Tree.nil) 5327 (.pointer (.named 554)) (.node (.node Tree.nil 5328 (.slice (.interface
  3)) Tree.nil) 5329 (.slice (.interface 3)) Tree.nil)) 5330 (.signature 55) (.node (.node (.node Tree.nil 5331 (.pointer (.named 554)) Tree.nil)
  5332 (.slice (.interface 3)) Tree.nil) 5333 (.slice (.interface 3)) (.node Tree.nil 5334 (.interface 3) Tree.nil))) 5335 (.slice (.interface 3))
  (.node (.node (.node (.node Tree.nil 5340 (.named 19) Tree.nil) 5344 (.named 559) Tree.nil) 5345 (.signature 58) (.node (.node Tree.nil 5347
  (.other 59) Tree.nil) 5348 (.named 19) Tree.nil)) 5352 (.signature 58) (.node (.node (.node Tree.nil 5355 (.interface 46) Tree.nil) 5357 (.named
  560) Tree.nil) 5359 (.struct 2) (.node Tree.nil 5362 (.named 560) Tree.nil))))) 5365 (.signature 58) (.node (.node (.node (.node (.node (.node
  Tree.nil 5367 (.other 59) Tree.nil) 5368 (.named 19) Tree.nil) 5372 (.signature 58) (.node (.node Tree.nil 5373 (.other 59) Tree.nil) 5374
  (.untypedNil) Tree.nil)) 5393 (.signature 60) (.node (.node (.node Tree.nil 5394 (.other 10) Tree.nil) 5395 (.other 10) Tree.nil) 5396 (.other 10)
  (.node Tree.nil 5399 (.named 19) Tree.nil))) 5402 (.signature 60) (.node (.node (.node (.node Tree.nil 5403 (.other 10) Tree.nil) 5405 (.named
  539) Tree.nil) 5406 (.string) (.node (.node Tree.nil 5407 (.named 539) Tree.nil) 5408 (.pointer (.named 539)) Tree.nil)) 5412 (.pointer (.named
  550)) (.node (.node (.node Tree.nil 5413 (.named 550) Tree.nil) 5414 (.other 10) Tree.nil) 5415 (.string) (.node Tree.nil 5416 (.named 550)
  Tree.nil)))) 5417 (.pointer (.named 550)) (.node (.node (.node (.node (.node Tree.nil 5419 (.other 10) Tree.nil) 5421 (.pointer (.named 550))
  Tree.nil) 5425 (.untypedNil) (.node (.node Tree.nil 5429 (.signature 28) Tree.nil) 5430 (.other 8) Tree.nil)) 5431 (.other 8) (.node (.node (.node
  Tree.nil 5434 (.named 19) Tree.nil) 5437 (.signature 28) Tree.nil) 5438 (.pointer (.named 539)) (.node Tree.nil 5439 (.named 539) Tree.nil))) 5440
  (.string) (.node (.node (.node (.node Tree.nil 5441 (.named 539) Tree.nil) 5442 (.pointer (.named 539)) Tree.nil) 5444 (.other 8) (.node (.node
  Tree.nil 5446 (.other 8) Tree.nil) 5447 (.pointer (.named 539)) Tree.nil)) 5448 (.string) (.node (.node (.node Tree.nil 5449 (.string) Tree.nil)
  5450 (.string) Tree.nil) 5453 (.other 8) (.node Tree.nil 5454 (.pointer (.named 539)) Tree.nil)))))))) 5455 (.string) (.node (.node (.node (.node
  (.node (.node (.node (.node (.node Tree.nil 5456 (.string) Tree.nil) 5457 (.string) Tree.nil) 5460 (.pointer (.named 539)) (.node (.node Tree.nil
  5461 (.string) Tree.nil) 5462 (.string) Tree.nil)) 5464 (.signature 49) (.node (.node (.node Tree.nil 5465 (.signature 49) Tree.nil) 5466
  (.string) Tree.nil) 5467 (.other 8) (.node Tree.nil 5468 (.string) Tree.nil))) 5473 (.pointer (.named 539)) (.node (.node (.node (.node Tree.nil
  5477 (.signature 6) Tree.nil) 5479 (.named 19) Tree.nil) 5482 (.signature 6) (.node (.node Tree.nil 5483 (.signature 22) Tree.nil) 5484 (.string)
  Tree.nil)) 5485 (.named 19) (.node (.node (.node Tree.nil 5489 (.signature 22) Tree.nil) 5490 (.string) Tree.nil) 5491 (.string) (.node Tree.nil
  5494 (.named 19) Tree.nil)))) 5497 (.signature 22) (.node (.node (.node (.node (.node Tree.nil 5498 (.string) Tree.nil) 5499 (.string) Tree.nil)
  5500 (.other 10) (.node (.node Tree.nil 5502 (.named 539) Tree.nil) 5503 (.string) Tree.nil)) 5504 (.named 539) (.node (.node (.node Tree.nil 5505
  (.pointer (.named 539)) Tree.nil) 5509 (.named 539) Tree.nil) 5510 (.string) (.node Tree.nil 5511 (.named 539) Tree.nil))) 5512 (.pointer (.named
  539)) (.node (.node (.node (.node Tree.nil 5537 (.signature 6) Tree.nil) 5539 (.named 19) Tree.nil) 5542 (.signature 6) (.node (.node Tree.nil
  5543 (.named 539) Tree.nil) 5544 (.string) Tree.nil)) 5545 (.named 539) (.node (.node (.node Tree.nil 5546 (.pointer (.named 539)) Tree.nil) 5550
  (.signature 28) Tree.nil) 5551 (.other 8) (.node Tree.nil 5552 (.other 8) Tree.nil))))) 5555 (.named 19) (.node (.node (.node (.node (.node (.node
  Tree.nil 5558 (.signature 28) Tree.nil) 5559 (.slice (.named 19)) Tree.nil) 5560 (.named 19) (.node (.node Tree.nil 5561 (.slice (.named 19))
  Tree.nil) 5562 (.untypedNil) Tree.nil)) 5563 (.named 539) (.node (.node (.node Tree.nil 5564 (.string) Tree.nil) 5565 (.named 539) Tree.nil) 5566
  (.pointer (.named 539)) (.node Tree.nil 5567 (.named 539) Tree.nil))) 5568 (.string) (.node (.node (.node (.node Tree.nil 5569 (.named 539)
  Tree.nil) 5570 (.pointer (.named 539)) Tree.nil) 5571 (.slice (.named 19)) (.node (.node Tree.nil 5573 (.slice (.named 19)) Tree.nil) 5574 (.other
  8) Tree.nil)) 5575 (.named 19) (.node (.node (.node Tree.nil 5579 (.signature 61) Tree.nil) 5581 (.named 539) Tree.nil) 5582 (.pointer (.named
  539)) (.node Tree.nil 5585 (.signature 61) Tree.nil)))) 5586 (.other 10) (.node (.node (.node (.node (.node Tree.nil 5587 (.named 539) Tree.nil)
  5588 (.string) Tree.nil) 5589 (.named 539) (.node (.node Tree.nil 5590 (.pointer (.named 539)) Tree.nil) 5593 (.other 10) Tree.nil)) 5594 (.named
  539) (.node (.node (.node Tree.nil 5595 (.string) Tree.nil) 5596 (.named 539) Tree.nil) 5597 (.pointer (.named 539)) (.node Tree.nil 5600 (.other
  10) Tree.nil))) 5601 (.named 539) (.node (.node (.node (.node Tree.nil 5602 (.string) Tree.nil) 5603 (.named 539) Tree.nil) 5604 (.pointer (.named
  539)) (.node (.node Tree.nil 5609 (.untypedNil) Tree.nil) 5613 (.signature 62) Tree.nil)) 5614 (.pointer (.named 539)) (.node (.node (.node
  Tree.nil 5615 (.named 539) Tree.nil) 5616 (.pointer (.named 539)) Tree.nil) 5619 (.signature 62) (.node Tree.nil 5622 (.signature 6)
  Tree.nil)))))) 5624 (.named 19) (.node (.node (.node (.node (.node (.node (.node Tree.nil 5627 (.signature 6) Tree.nil) 5628 (.pointer (.named
  539)) Tree.nil) 5629 (.signature 61) (.node (.node Tree.nil 5630 (.pointer (.named 539)) Tree.nil) 5632 (.pointer (.named 539)) Tree.nil)) 5633
  (.signature 11) (.node (.node (.node Tree.nil 5634 (.signature 11) Tree.nil) 5635 (.string) Tree.nil) 5637 (.string) (.node Tree.nil 5638
  (.untypedNil) Tree.nil))) 5641 (.string) (.node (.node (.node (.node Tree.nil 5642 (.signature 62) Tree.nil) 5643 (.pointer (.named 539))
  Tree.nil) 5644 (.tuple 56) (.node (.node Tree.nil 5646 (.untypedNil) Tree.nil) 5649 (.pointer (.named 539)) Tree.nil)) 5656 (.signature 6) (.node
  (.node (.node Tree.nil 5658 (.named 19) Tree.nil) 5661 (.signature 6) Tree.nil) 5662 (.pointer (.named 539)) (.node Tree.nil 5663 (.signature 61)
  Tree.nil)))) 5664 (.pointer (.named 539)) (.node (.node (.node (.node (.node Tree.nil 5666 (.pointer (.named 539)) Tree.nil) 5670 (.signature 6)
  Tree.nil) 5672 (.named 19) (.node (.node Tree.nil 5675 (.signature 6) Tree.nil) 5676 (.pointer (.named 539)) Tree.nil)) 5677 (.named 539) (.node
  (.node (.node Tree.nil 5678 (.named 539) Tree.nil) 5679 (.pointer (.named 539)) Tree.nil) 5681 (.pointer (.named 539)) (.node Tree.nil 5682
  (.string) Tree.nil))) 5683 (.string) (.node (.node (.node (.node Tree.nil 5684 (.string) Tree.nil) 5686 (.pointer (.named 539)) Tree.nil) 5715
  (.named 573) (.node (.node Tree.nil 5716 (.signature 53) Tree.nil) 5719 (.interface 3) Tree.nil)) 5722 (.named 19) (.node (.node (.node Tree.nil
  5725 (.signature 53) Tree.nil) 5727 (.signature 18) Tree.nil) 5730 (.interface 3) (.node Tree.nil 5731 (.named 19) Tree.nil))))) 5735 (.signature
  18) (.node (.node (.node (.node (.node (.node Tree.nil 5738 (.interface 47) Tree.nil) 5741 (.named 574) Tree.nil) 5742 (.interface 3) (.node
  (.node Tree.nil 5744 (.interface 3) Tree.nil) 5747 (.struct 45) Tree.nil)) 5750 (.pointer (.named 574)) (.node (.node (.node Tree.nil 5751 (.named
  574) Tree.nil) 5752 (.pointer (.named 574)) Tree.nil) 5755 (.signature 53) (.node Tree.nil 5756 (.interface 3) Tree.nil))) 5758 (.interface 3)
  (.node (.node (.node (.node Tree.nil 5761 (.named 19) Tree.nil) 5764 (.signature 53) Tree.nil) 5765 (.interface 3) (.node (.node Tree.nil 5766
  (.untypedNil) Tree.nil) 5767 (.other 10) Tree.nil)) 5769 (.named 539) (.node (.node (.node Tree.nil 5770 (.string) Tree.nil) 5771 (.named 539)
  Tree.nil) 5772 (.pointer (.named 539)) (.node Tree.nil 5776 (.pointer (.named 574)) Tree.nil)))) 5777 (.untypedNil) (.node (.node (.node (.node
  (.node Tree.nil 5778 (.other 10) Tree.nil) 5779 (.pointer (.named 574)) Tree.nil) 5780 (.interface 3) (.node (.node Tree.nil 5781 (.interface 3)
  Tree.nil) 5782 (.untypedNil) Tree.nil)) 5783 (.other 10) (.node (.node (.node Tree.nil 5784 (.other 10) Tree.nil) 5786 (.named 539) Tree.nil) 5787
  (.string) (.node Tree.nil 5788 (.named 539) Tree.nil))) 5789 (.pointer (.named 539)) (.node (.node (.node (.node Tree.nil 5793 (.pointer (.named
  574)) Tree.nil) 5794 (.interface 3) Tree.nil) 5795 (.interface 3) (.node (.node Tree.nil 5796 (.interface 3) Tree.nil) 5798 (.untypedNil)
  Tree.nil)) 5802 (.pointer (.named 574)) (.node (.node (.node Tree.nil 5803 (.named 574) Tree.nil) 5804 (.pointer (.named 574)) Tree.nil) 5807
  (.signature 18) (.node Tree.nil 5810 (.interface 3) Tree.nil))))))) 5811 (.named 19) (.node (.node (.node (.node (.node (.node (.node (.node
  Tree.nil 5815 (.signature 18) Tree.nil) 5816 (.pointer (.named 574)) Tree.nil) 5817 (.untypedNil) (.node (.node Tree.nil 5818 (.other 10)
  Tree.nil) 5819 (.pointer (.named 574)) Tree.nil)) 5820 (.interface 3) (.node (.node (.node Tree.nil 5821 (.interface 3) Tree.nil) 5822
  (.untypedNil) Tree.nil) 5823 (.other 10) (.node Tree.nil 5824 (.other 10) Tree.nil))) 5826 (.untypedNil) (.node (.node (.node (.node Tree.nil 5827
  (.named 539) Tree.nil) 5828 (.string) Tree.nil) 5829 (.named 539) (.node (.node Tree.nil 5830 (.pointer (.named 539)) Tree.nil) 5834 (.pointer
  (.named 574)) Tree.nil)) 5835 (.interface 3) (.node (.node (.node Tree.nil 5836 (.interface 3) Tree.nil) 5837 (.untypedNil) Tree.nil) 5839
  (.pointer (.named 574)) (.node Tree.nil 5840 (.interface 3) Tree.nil)))) 5841 (.interface 3) (.node (.node (.node (.node (.node Tree.nil 5842
  (.untypedNil) Tree.nil) 5846 (.signature 15) Tree.nil) 5848 (.signature 15) (.node (.node Tree.nil 5849 (.named 573) Tree.nil) 5850 (.named 573)
  Tree.nil)) 5851 (.named 574) (.node (.node (.node Tree.nil 5852 (.named 574) Tree.nil) 5853 (.pointer (.named 574)) Tree.nil) 5857 (.named 573)
  (.node Tree.nil 5858 (.signature 53) Tree.nil))) 5859 (.signature 53) (.node (.node (.node (.node Tree.nil 5860 (.named 573) Tree.nil) 5861
  (.named 19) Tree.nil) 5865 (.named 578) (.node (.node Tree.nil 5867 (.struct 2) Tree.nil) 5870 (.pointer (.named 578)) Tree.nil)) 5871 (.named
  578) (.node (.node (.node Tree.nil 5872 (.pointer (.named 578)) Tree.nil) 5875 (.signature 53) Tree.nil) 5876 (.interface 3) (.node Tree.nil 5878
  (.interface 3) Tree.nil))))) 5881 (.named 19) (.node (.node (.node (.node (.node (.node Tree.nil 5884 (.signature 53) Tree.nil) 5885 (.named 539)
  Tree.nil) 5886 (.string) (.node (.node Tree.nil 5887 (.named 539) Tree.nil) 5888 (.pointer (.named 539)) Tree.nil)) 5892 (.pointer (.named 578))
  (.node (.node (.node Tree.nil 5893 (.named 578) Tree.nil) 5894 (.pointer (.named 578)) Tree.nil) 5897 (.signature 18) (.node Tree.nil 5900
  (.interface 3) Tree.nil))) 5901 (.named 19) (.node (.node (.node (.node Tree.nil 5905 (.signature 18) Tree.nil) 5906 (.untypedNil) Tree.nil) 5907
  (.named 539) (.node (.node Tree.nil 5908 (.string) Tree.nil) 5909 (.named 539) Tree.nil)) 5910 (.pointer (.named 539)) (.node (.node (.node
  Tree.nil 5914 (.signature 15) Tree.nil) 5916 (.signature 15) Tree.nil) 5917 (.named 573) (.node Tree.nil 5918 (.named 573) Tree.nil)))) 5919
  (.named 578) (.node (.node (.node (.node (.node Tree.nil 5920 (.named 578) Tree.nil) 5921 (.pointer (.named 578)) Tree.nil) 5925 (.named 573)
  (.node (.node Tree.nil 5926 (.signature 53) Tree.nil) 5927 (.signature 53) Tree.nil)) 5928 (.named 573) (.node (.node (.node Tree.nil 5929 (.named
  19) Tree.nil) 5933 (.named 582) Tree.nil) 5934 (.signature 53) (.node Tree.nil 5937 (.interface 3) Tree.nil))) 5940 (.named 19) (.node (.node
  (.node (.node Tree.nil 5943 (.signature 53) Tree.nil) 5945 (.signature 18) Tree.nil) 5948 (.interface 3) (.node (.node Tree.nil 5949 (.named 19)
  Tree.nil) 5953 (.signature 18) Tree.nil)) 5956 (.interface 47) (.node (.node (.node Tree.nil 5959 (.named 583) Tree.nil) 5960 (.named 573)
  Tree.nil) 5962 (.named 582) (.node Tree.nil 5965 (.interface 47) Tree.nil)))))) 5978 (.signature 63) (.node (.node (.node (.node (.node (.node
  (.node Tree.nil 5979 (.string) Tree.nil) 5980 (.string) Tree.nil) 5983 (.named 539) (.node (.node Tree.nil 5984 (.pointer (.named 539)) Tree.nil)
  5987 (.signature 63) Tree.nil)) 5988 (.named 539) (.node (.node (.node Tree.nil 5989 (.string) Tree.nil) 5990 (.named 539) Tree.nil) 5991
  (.pointer (.named 539)) (.node Tree.nil 5995 (.signature 64) Tree.nil))) 5996 (.other 10) (.node (.node (.node (.node Tree.nil 5997 (.other 10)
  Tree.nil) 5998 (.string) Tree.nil) 5999 (.string) (.node (.node Tree.nil 6003 (.named 550) Tree.nil) 6004 (.pointer (.named 550)) Tree.nil)) 6007
  (.signature 64) (.node (.node (.node Tree.nil 6008 (.pointer (.named 550)) Tree.nil) 6009 (.named 550) Tree.nil) 6010 (.other 10) (.node Tree.nil
  6011 (.string) Tree.nil)))) 6012 (.named 550) (.node (.node (.node (.node (.node Tree.nil 6013 (.pointer (.named 550)) Tree.nil) 6015 (.other 10)
  Tree.nil) 6017 (.pointer (.named 550)) (.node (.node Tree.nil 6018 (.string) Tree.nil) 6019 (.string) Tree.nil)) 6020 (.string) (.node (.node
  (.node Tree.nil 6024 (.pointer (.named 550)) Tree.nil) 6028 (.signature 6) Tree.nil) 6030 (.named 19) (.node Tree.nil 6033 (.signature 6)
  Tree.nil))) 6034 (.signature 63) (.node (.node (.node (.node Tree.nil 6035 (.string) Tree.nil) 6036 (.pointer (.named 539)) Tree.nil) 6040
  (.signature 65) (.node (.node Tree.nil 6041 (.other 10) Tree.nil) 6042 (.other 10) Tree.nil)) 6043 (.string) (.node (.node (.node Tree.nil 6044
  (.string) Tree.nil) 6048 (.named 19) Tree.nil) 6051 (.signature 65) (.node Tree.nil 6052 (.other 10) Tree.nil))))) 6054 (.signature 64) (.node
  (.node (.node (.node (.node (.node Tree.nil 6055 (.other 10) Tree.nil) 6056 (.string) Tree.nil) 6057 (.pointer (.named 550)) (.node (.node
  Tree.nil 6061 (.signature 63) Tree.nil) 6062 (.string) Tree.nil)) 6063 (.pointer (.named 539)) (.node (.node (.node Tree.nil 6074 (.signature 6)
  Tree.nil) 6076 (.named 19) Tree.nil) 6079 (.signature 6) (.node Tree.nil 6080 (.pointer (.named 539)) Tree.nil))) 6081 (.named 539) (.node (.node
  (.node (.node Tree.nil 6082 (.string) Tree.nil) 6083 (.named 539) Tree.nil) 6084 (.pointer (.named 539)) (.node (.node Tree.nil 6086 (.signature
  62) Tree.nil) 6087 (.pointer (.named 539)) Tree.nil)) 6088 (.tuple 56) (.node (.node (.node Tree.nil 6090 (.pointer (.named 539)) Tree.nil) 6094
  (.signature 62) Tree.nil) 6095 (.pointer (.named 539)) (.node Tree.nil 6096 (.named 539) Tree.nil)))) 6097 (.pointer (.named 539)) (.node (.node
  (.node (.node (.node Tree.nil 6100 (.signature 62) Tree.nil) 6101 (.pointer (.named 539)) Tree.nil) 6102 (.string) (.node (.node Tree.nil 6103
  (.string) Tree.nil) 6104 (.string) Tree.nil)) 6108 (.signature 6) (.node (.node (.node Tree.nil 6110 (.named 19) Tree.nil) 6113 (.signature 6)
  Tree.nil) 6114 (.other 10) (.node Tree.nil 6116 (.named 539) Tree.nil))) 6117 (.string) (.node (.node (.node (.node Tree.nil 6118 (.named 539)
  Tree.nil) 6119 (.pointer (.named 539)) Tree.nil) 6123 (.untypedNil) (.node Tree.nil 6127 (.signature 66) Tree.nil)) 6129 (.named 19) (.node (.node
  (.node Tree.nil 6130 (.string) Tree.nil) 6134 (.signature 66) Tree.nil) 6135 (.untypedNil) (.node Tree.nil 6136 (.string) Tree.nil)))))))))
/-- Constant values of expressions. -/
def valueTable : Tree Const := (.node (.node (.node (.node (.node (.node (.node Tree.nil 4900 (.str s66) Tree.nil) 4903 (.str s66) Tree.nil) 4904
  (.str s68) (.node Tree.nil 4905 (.str s67) Tree.nil)) 4908 (.str s66) (.node (.node (.node Tree.nil 4909 (.str s70) Tree.nil) 4910 (.str s69)
  Tree.nil) 4913 (.str s66) (.node Tree.nil 4914 (.str s72) Tree.nil))) 4915 (.str s71) (.node (.node (.node (.node Tree.nil 4931 (.str s73)
  Tree.nil) 4952 (.str s74) Tree.nil) 4954 (.str s67) (.node Tree.nil 4963 (.str s75) Tree.nil)) 4965 (.str s69) (.node (.node Tree.nil 4968 (.str
  s71) Tree.nil) 4982 (.str s76) (.node Tree.nil 4983 (.str s76) Tree.nil)))) 5033 (.str s77) (.node (.node (.node (.node (.node Tree.nil 5040 (.str
  s74) Tree.nil) 5043 (.str s71) Tree.nil) 5061 (.other) (.node Tree.nil 5062 (.str s78) Tree.nil)) 5116 (.str s79) (.node (.node (.node Tree.nil
  5128 (.other) Tree.nil) 5133 (.str s80) Tree.nil) 5150 (.str s81) (.node Tree.nil 5186 (.str s82) Tree.nil))) 5211 (.str s79) (.node (.node (.node
  (.node Tree.nil 5223 (.other) Tree.nil) 5228 (.str s80) Tree.nil) 5245 (.str s81) (.node Tree.nil 5290 (.str s79) Tree.nil)) 5301 (.other) (.node
  (.node Tree.nil 5306 (.str s80) Tree.nil) 5322 (.str s81) (.node Tree.nil 5373 (.other) Tree.nil))))) 5406 (.str s78) (.node (.node (.node (.node
  (.node (.node Tree.nil 5414 (.other) Tree.nil) 5415 (.str s83) Tree.nil) 5440 (.str s84) (.node Tree.nil 5446 (.other) Tree.nil)) 5450 (.str s85)
  (.node (.node (.node Tree.nil 5453 (.other) Tree.nil) 5457 (.str s86) Tree.nil) 5466 (.str s87) (.node Tree.nil 5484 (.str s88) Tree.nil))) 5499
  (.str s89) (.node (.node (.node (.node Tree.nil 5503 (.str s90) Tree.nil) 5510 (.str s91) Tree.nil) 5544 (.str s71) (.node Tree.nil 5564 (.str
  s86) Tree.nil)) 5568 (.str s92) (.node (.node Tree.nil 5586 (.other) Tree.nil) 5588 (.str s86) (.node Tree.nil 5593 (.other) Tree.nil)))) 5595
  (.str s92) (.node (.node (.node (.node (.node Tree.nil 5600 (.other) Tree.nil) 5602 (.str s93) Tree.nil) 5637 (.str s74) (.node Tree.nil 5641
  (.str s86) Tree.nil)) 5684 (.str s94) (.node (.node Tree.nil 5770 (.str s95) Tree.nil) 5787 (.str s96) (.node Tree.nil 5828 (.str s96) Tree.nil)))
  5886 (.str s78) (.node (.node (.node (.node Tree.nil 5908 (.str s78) Tree.nil) 6011 (.str s71) Tree.nil) 6035 (.str s78) (.node Tree.nil 6082
  (.str s96) Tree.nil)) 6104 (.str s97) (.node (.node Tree.nil 6114 (.other) Tree.nil) 6117 (.str s98) (.node Tree.nil 6136 (.str s74)
  Tree.nil))))))
/-- `typeutil.Callee` of call expressions. -/
def calleeTable : Tree Nat := (.node (.node (.node (.node (.node Tree.nil 4935 (548) Tree.nil) 4937 (41) Tree.nil) 4964 (536) (.node (.node Tree.nil
  5143 (32) Tree.nil) 5164 (25) Tree.nil)) 5187 (35) (.node (.node (.node Tree.nil 5238 (32) Tree.nil) 5259 (25) Tree.nil) 5315 (32) (.node (.node
  Tree.nil 5335 (25) Tree.nil) 5468 (41) Tree.nil))) 5485 (565) (.node (.node (.node (.node Tree.nil 5630 (568) Tree.nil) 5635 (541) Tree.nil) 5644
  (569) (.node (.node Tree.nil 5664 (568) Tree.nil) 5861 (598) Tree.nil)) 5929 (598) (.node (.node (.node Tree.nil 6036 (584) Tree.nil) 6057 (585)
  Tree.nil) 6063 (584) (.node Tree.nil 6088 (589) Tree.nil))))
/-- `Info.Uses`. -/
def usesTable : Tree Nat := (.node (.node (.node (.node (.node (.node (.node (.node (.node Tree.nil 4855 (16) Tree.nil) 4862 (539) Tree.nil) 4868
  (16) (.node Tree.nil 4872 (603) Tree.nil)) 4873 (105) (.node (.node (.node Tree.nil 4879 (539) Tree.nil) 4885 (16) Tree.nil) 4889 (604) (.node
  Tree.nil 4890 (105) Tree.nil))) 4896 (16) (.node (.node (.node (.node Tree.nil 4903 (543) Tree.nil) 4908 (543) Tree.nil) 4913 (543) (.node
  Tree.nil 4919 (542) Tree.nil)) 4924 (16) (.node (.node Tree.nil 4929 (41) Tree.nil) 4932 (605) (.node Tree.nil 4933 (548) Tree.nil)))) 4936 (605)
  (.node (.node (.node (.node (.node Tree.nil 4942 (542) Tree.nil) 4947 (16) Tree.nil) 4951 (606) (.node Tree.nil 4954 (544) Tree.nil)) 4958 (536)
  (.node (.node Tree.nil 4960 (16) Tree.nil) 4961 (606) (.node Tree.nil 4965 (545) Tree.nil))) 4968 (546) (.node (.node (.node (.node Tree.nil 4977
  (542) Tree.nil) 4981 (542) Tree.nil) 4989 (0) (.node Tree.nil 4992 (16) Tree.nil)) 4999 (550) (.node (.node Tree.nil 5005 (16) Tree.nil) 5009
  (607) (.node Tree.nil 5010 (608) Tree.nil))))) 5016 (550) (.node (.node (.node (.node (.node (.node Tree.nil 5022 (16) Tree.nil) 5026 (609)
  Tree.nil) 5027 (610) (.node Tree.nil 5030 (609) Tree.nil)) 5031 (608) (.node (.node Tree.nil 5037 (609) Tree.nil) 5038 (608) (.node Tree.nil 5047
  (609) Tree.nil))) 5048 (608) (.node (.node (.node (.node Tree.nil 5055 (550) Tree.nil) 5060 (550) Tree.nil) 5061 (22) (.node Tree.nil 5090 (1)
  Tree.nil)) 5097 (554) (.node (.node Tree.nil 5107 (19) Tree.nil) 5111 (612) (.node Tree.nil 5112 (23) Tree.nil)))) 5115 (539) (.node (.node (.node
  (.node (.node Tree.nil 5122 (611) Tree.nil) 5123 (23) Tree.nil) 5125 (611) (.node Tree.nil 5126 (613) Tree.nil)) 5132 (539) (.node (.node Tree.nil
  5139 (32) Tree.nil) 5140 (611) (.node Tree.nil 5141 (614) Tree.nil))) 5144 (611) (.node (.node (.node (.node Tree.nil 5145 (613) Tree.nil) 5149
  (539) Tree.nil) 5156 (611) (.node Tree.nil 5157 (614) Tree.nil)) 5159 (25) (.node (.node Tree.nil 5160 (611) Tree.nil) 5161 (614) (.node Tree.nil
  5163 (612) Tree.nil)))))) 5166 (23) (.node (.node (.node (.node (.node (.node (.node Tree.nil 5171 (554) Tree.nil) 5181 (19) Tree.nil) 5185 (35)
  (.node Tree.nil 5192 (554) Tree.nil)) 5202 (19) (.node (.node (.node Tree.nil 5206 (618) Tree.nil) 5207 (23) Tree.nil) 5210 (539) (.node Tree.nil
  5217 (617) Tree.nil))) 5218 (23) (.node (.node (.node (.node Tree.nil 5220 (617) Tree.nil) 5221 (613) Tree.nil) 5227 (539) (.node Tree.nil 5234
  (32) Tree.nil)) 5235 (617) (.node (.node Tree.nil 5236 (614) Tree.nil) 5239 (617) (.node Tree.nil 5240 (613) Tree.nil)))) 5244 (539) (.node (.node
  (.node (.node (.node Tree.nil 5251 (617) Tree.nil) 5252 (614) Tree.nil) 5254 (25) (.node Tree.nil 5255 (617) Tree.nil)) 5256 (614) (.node (.node
  Tree.nil 5258 (618) Tree.nil) 5261 (23) (.node Tree.nil 5266 (554) Tree.nil))) 5276 (19) (.node (.node (.node (.node Tree.nil 5281 (19) Tree.nil)
  5285 (620) Tree.nil) 5286 (23) (.node Tree.nil 5288 (621) Tree.nil)) 5289 (539) (.node (.node Tree.nil 5295 (619) Tree.nil) 5296 (23) (.node
  Tree.nil 5298 (619) Tree.nil))))) 5299 (613) (.node (.node (.node (.node (.node (.node Tree.nil 5304 (621) Tree.nil) 5305 (539) Tree.nil) 5311
  (32) (.node Tree.nil 5312 (619) Tree.nil)) 5313 (614) (.node (.node Tree.nil 5316 (619) Tree.nil) 5317 (613) (.node Tree.nil 5320 (621)
  Tree.nil))) 5321 (539) (.node (.node (.node (.node Tree.nil 5327 (619) Tree.nil) 5328 (614) Tree.nil) 5330 (25) (.node Tree.nil 5331 (619)
  Tree.nil)) 5332 (614) (.node (.node Tree.nil 5334 (620) Tree.nil) 5340 (621) (.node Tree.nil 5347 (17) Tree.nil)))) 5348 (19) (.node (.node (.node
  (.node (.node Tree.nil 5362 (560) Tree.nil) 5367 (17) Tree.nil) 5368 (19) (.node Tree.nil 5374 (23) Tree.nil)) 5396 (0) (.node (.node Tree.nil
  5399 (19) Tree.nil) 5403 (622) (.node Tree.nil 5405 (539) Tree.nil))) 5413 (550) (.node (.node (.node (.node Tree.nil 5414 (22) Tree.nil) 5419
  (623) Tree.nil) 5421 (624) (.node Tree.nil 5425 (23) Tree.nil)) 5431 (1) (.node (.node Tree.nil 5434 (19) Tree.nil) 5439 (539) (.node Tree.nil
  5444 (625) Tree.nil))))))) 5447 (626) (.node (.node (.node (.node (.node (.node (.node (.node Tree.nil 5448 (105) Tree.nil) 5454 (626) Tree.nil)
  5455 (105) (.node Tree.nil 5460 (626) Tree.nil)) 5461 (105) (.node (.node (.node Tree.nil 5464 (41) Tree.nil) 5467 (625) Tree.nil) 5473 (626)
  (.node Tree.nil 5479 (19) Tree.nil))) 5483 (565) (.node (.node (.node (.node Tree.nil 5491 (16) Tree.nil) 5494 (19) Tree.nil) 5498 (627) (.node
  Tree.nil 5502 (539) Tree.nil)) 5509 (539) (.node (.node Tree.nil 5539 (19) Tree.nil) 5543 (539) (.node Tree.nil 5552 (1) Tree.nil)))) 5555 (19)
  (.node (.node (.node (.node (.node Tree.nil 5560 (19) Tree.nil) 5562 (23) Tree.nil) 5563 (539) (.node Tree.nil 5567 (539) Tree.nil)) 5573 (629)
  (.node (.node Tree.nil 5574 (628) Tree.nil) 5581 (539) (.node Tree.nil 5586 (21) Tree.nil))) 5587 (539) (.node (.node (.node (.node Tree.nil 5593
  (21) Tree.nil) 5594 (539) Tree.nil) 5600 (21) (.node Tree.nil 5601 (539) Tree.nil)) 5609 (23) (.node (.node Tree.nil 5615 (539) Tree.nil) 5624
  (19) (.node Tree.nil 5629 (568) Tree.nil))))) 5632 (631) (.node (.node (.node (.node (.node (.node Tree.nil 5633 (541) Tree.nil) 5638 (23)
  Tree.nil) 5642 (569) (.node Tree.nil 5643 (631) Tree.nil)) 5646 (23) (.node (.node Tree.nil 5649 (631) Tree.nil) 5658 (19) (.node Tree.nil 5663
  (568) Tree.nil))) 5666 (632) (.node (.node (.node (.node Tree.nil 5672 (19) Tree.nil) 5677 (539) Tree.nil) 5681 (633) (.node Tree.nil 5682 (105)
  Tree.nil)) 5686 (633) (.node (.node Tree.nil 5722 (19) Tree.nil) 5731 (19) (.node Tree.nil 5751 (574) Tree.nil)))) 5761 (19) (.node (.node (.node
  (.node (.node Tree.nil 5765 (635) Tree.nil) 5766 (23) Tree.nil) 5769 (539) (.node Tree.nil 5776 (634) Tree.nil)) 5777 (23) (.node (.node Tree.nil
  5779 (634) Tree.nil) 5780 (636) (.node Tree.nil 5782 (23) Tree.nil))) 5786 (539) (.node (.node (.node (.node Tree.nil 5793 (634) Tree.nil) 5794
  (636) Tree.nil) 5796 (635) (.node Tree.nil 5798 (23) Tree.nil)) 5803 (574) (.node (.node Tree.nil 5811 (19) Tree.nil) 5816 (637) (.node Tree.nil
  5817 (23) Tree.nil)))))) 5819 (637) (.node (.node (.node (.node (.node (.node (.node Tree.nil 5820 (636) Tree.nil) 5822 (23) Tree.nil) 5826 (23)
  (.node Tree.nil 5827 (539) Tree.nil)) 5834 (637) (.node (.node Tree.nil 5835 (636) Tree.nil) 5837 (23) (.node Tree.nil 5839 (637) Tree.nil))) 5840
  (636) (.node (.node (.node (.node Tree.nil 5842 (23) Tree.nil) 5850 (573) Tree.nil) 5851 (574) (.node Tree.nil 5857 (638) Tree.nil)) 5858 (598)
  (.node (.node Tree.nil 5860 (638) Tree.nil) 5871 (578) (.node Tree.nil 5881 (19) Tree.nil)))) 5885 (539) (.node (.node (.node (.node (.node
  Tree.nil 5893 (578) Tree.nil) 5901 (19) Tree.nil) 5906 (23) (.node Tree.nil 5907 (539) Tree.nil)) 5918 (573) (.node (.node Tree.nil 5919 (578)
  Tree.nil) 5925 (642) (.node Tree.nil 5926 (598) Tree.nil))) 5928 (642) (.node (.node (.node (.node Tree.nil 5940 (19) Tree.nil) 5949 (19)
  Tree.nil) 5960 (573) (.node Tree.nil 5962 (582) Tree.nil)) 5980 (16) (.node (.node Tree.nil 5983 (539) Tree.nil) 5988 (539) (.node Tree.nil 5989
  (643) Tree.nil))))) 5997 (0) (.node (.node (.node (.node (.node (.node Tree.nil 5999 (16) Tree.nil) 6003 (550) Tree.nil) 6009 (550) (.node
  Tree.nil 6010 (644) Tree.nil)) 6015 (644) (.node (.node Tree.nil 6017 (646) Tree.nil) 6018 (608) (.node Tree.nil 6020 (645) Tree.nil))) 6024 (646)
  (.node (.node (.node (.node Tree.nil 6030 (19) Tree.nil) 6034 (584) Tree.nil) 6042 (0) (.node Tree.nil 6044 (16) Tree.nil)) 6048 (19) (.node
  (.node Tree.nil 6052 (647) Tree.nil) 6054 (585) (.node Tree.nil 6055 (647) Tree.nil)))) 6056 (648) (.node (.node (.node (.node (.node Tree.nil
  6061 (584) Tree.nil) 6062 (648) Tree.nil) 6076 (19) (.node Tree.nil 6081 (539) Tree.nil)) 6086 (589) (.node (.node Tree.nil 6087 (649) Tree.nil)
  6090 (649) (.node Tree.nil 6096 (539) Tree.nil))) 6101 (650) (.node (.node (.node (.node Tree.nil 6102 (105) Tree.nil) 6110 (19) Tree.nil) 6114
  (22) (.node Tree.nil 6116 (539) Tree.nil)) 6123 (23) (.node (.node Tree.nil 6129 (19) Tree.nil) 6130 (16) (.node Tree.nil 6135 (23)
  Tree.nil))))))))
/-- `Info.Selections`. -/
def selectionTable : Tree (GoType × Nat) := (.node (.node (.node (.node (.node (.node Tree.nil 4874 ((.pointer (.named 539), 105)) Tree.nil) 4891
  ((.pointer (.named 539), 105)) Tree.nil) 4934 ((.named 542, 548)) (.node Tree.nil 5011 ((.pointer (.named 550), 608)) Tree.nil)) 5028 ((.pointer
  (.named 550), 610)) (.node (.node (.node Tree.nil 5032 ((.pointer (.named 550), 608)) Tree.nil) 5039 ((.pointer (.named 550), 608)) Tree.nil) 5049
  ((.pointer (.named 550), 608)) (.node Tree.nil 5127 ((.pointer (.named 554), 613)) Tree.nil))) 5142 ((.pointer (.named 554), 614)) (.node (.node
  (.node (.node Tree.nil 5146 ((.pointer (.named 554), 613)) Tree.nil) 5158 ((.pointer (.named 554), 614)) Tree.nil) 5162 ((.pointer (.named 554),
  614)) (.node Tree.nil 5222 ((.pointer (.named 554), 613)) Tree.nil)) 5237 ((.pointer (.named 554), 614)) (.node (.node Tree.nil 5241 ((.pointer
  (.named 554), 613)) Tree.nil) 5253 ((.pointer (.named 554), 614)) (.node Tree.nil 5257 ((.pointer (.named 554), 614)) Tree.nil)))) 5300 ((.pointer
  (.named 554), 613)) (.node (.node (.node (.node (.node Tree.nil 5314 ((.pointer (.named 554), 614)) Tree.nil) 5318 ((.pointer (.named 554), 613))
  Tree.nil) 5329 ((.pointer (.named 554), 614)) (.node Tree.nil 5333 ((.pointer (.named 554), 614)) Tree.nil)) 5449 ((.pointer (.named 539), 105))
  (.node (.node (.node Tree.nil 5456 ((.pointer (.named 539), 105)) Tree.nil) 5462 ((.pointer (.named 539), 105)) Tree.nil) 5634 ((.pointer (.named
  539), 541)) (.node Tree.nil 5683 ((.pointer (.named 539), 105)) Tree.nil))) 5781 ((.pointer (.named 574), 636)) (.node (.node (.node (.node
  Tree.nil 5795 ((.pointer (.named 574), 636)) Tree.nil) 5821 ((.pointer (.named 574), 636)) Tree.nil) 5836 ((.pointer (.named 574), 636)) (.node
  Tree.nil 5841 ((.pointer (.named 574), 636)) Tree.nil)) 5859 ((.named 573, 598)) (.node (.node Tree.nil 5927 ((.named 573, 598)) Tree.nil) 6019
  ((.pointer (.named 550), 608)) (.node Tree.nil 6103 ((.pointer (.named 539), 105)) Tree.nil)))))
/-- Identifiers that are names of imported packages. -/
def pkgNameTable : Tree GoString := (.node (.node Tree.nil 4928 (s4) Tree.nil) 4957 (s7) (.node Tree.nil 5463 (s4) Tree.nil))
/-- Method sets. -/
def methodSetTable : Tree (List (GoString × Nat)) := (.node (.node (.node (.node (.node Tree.nil 27 ([(s0, 1386)]) Tree.nil) 95 ([(s0, 20)])
  Tree.nil) 232 ([(s31, 1399)]) (.node Tree.nil 237 ([(s53, 1400), (s50, 1401)]) Tree.nil)) 2696 ([(s3, 541), (s0, 540)]) (.node (.node Tree.nil
  2710 ([(s3, 548), (s0, 547)]) Tree.nil) 2711 ([(s3, 548), (s0, 547)]) (.node Tree.nil 2751 ([(s3, 552), (s0, 551)]) Tree.nil))) 2771 ([(s18, 555),
  (s29, 558), (s28, 557), (s26, 556)]) (.node (.node (.node (.node Tree.nil 2795 ([(s31, 597)]) Tree.nil) 2800 ([(s31, 561)]) Tree.nil) 2801 ([(s31,
  561)]) (.node Tree.nil 2865 ([(s53, 599), (s50, 598)]) Tree.nil)) 2871 ([(s53, 576), (s50, 575)]) (.node (.node Tree.nil 2891 ([(s53, 580), (s50,
  579)]) Tree.nil) 2910 ([(s53, 602), (s50, 601)]) (.node Tree.nil 2915 ([(s53, 602), (s50, 601)]) Tree.nil))))
/-- Types implementing `error`. -/
def implErrorTable : Tree Unit := (.node (.node (.node Tree.nil 27 (()) Tree.nil) 95 (()) (.node Tree.nil 2696 (()) Tree.nil)) 2710 (()) (.node
  (.node Tree.nil 2711 (()) Tree.nil) 2751 (()) Tree.nil))
/-- Types implementing `error` with a code. -/
def implCodeTable : Tree Unit := (.node (.node (.node Tree.nil 2696 (()) Tree.nil) 2710 (()) Tree.nil) 2711 (()) (.node Tree.nil 2751 (()) Tree.nil))
/-- Types implementing `error` with a cause. -/
def implCauseTable : Tree Unit := Tree.nil
/-- Signatures: types of parameters, variadic, number of results. -/
def sigTable : Tree (List GoType × Bool × Nat) := (.node (.node (.node (.node (.node Tree.nil 6 (([], false, 1)) Tree.nil) 11 (([], false, 1))
  Tree.nil) 15 (([], false, 0)) (.node (.node Tree.nil 18 (([], false, 2)) Tree.nil) 22 (([.string], false, 1)) Tree.nil)) 28 (([.other 8], false,
  1)) (.node (.node (.node Tree.nil 49 (([.string, .slice (.interface 3)], true, 1)) Tree.nil) 50 (([.string, .string], false, 1)) Tree.nil) 51
  (([], false, 1)) (.node (.node Tree.nil 52 (([], false, 1)) Tree.nil) 53 (([.interface 3], false, 1)) Tree.nil))) 54 (([.slice (.interface 3)],
  false, 1)) (.node (.node (.node (.node Tree.nil 55 (([.slice (.interface 3), .slice (.interface 3)], true, 1)) Tree.nil) 57 (([.interface 3],
  false, 0)) Tree.nil) 58 (([], false, 2)) (.node (.node Tree.nil 60 (([.other 10, .other 10], false, 1)) Tree.nil) 61 (([], false, 1)) Tree.nil))
  62 (([.pointer (.named 539)], false, 0)) (.node (.node (.node Tree.nil 63 (([.string], false, 1)) Tree.nil) 64 (([.other 10, .string], false, 1))
  Tree.nil) 65 (([.other 10, .string], false, 1)) (.node Tree.nil 66 (([], false, 2)) Tree.nil))))
/-- Tuples of results. -/
def tupleTable : Tree (List GoType) := (.node Tree.nil 56 ([]) Tree.nil)
/-- Fields of structs. -/
def structTable : Tree (List (GoString × GoType)) := (.node (.node (.node Tree.nil 1 ([(s2, .string)]) Tree.nil) 2 ([]) Tree.nil) 44 ([(s24, .slice
  (.interface 3)), (s22, .other 8)]) (.node (.node Tree.nil 45 ([(s51, .interface 3)]) Tree.nil) 48 ([(s15, .other 10), (s14, .string)]) Tree.nil))
/-- Underlying types of named types. -/
def underlyingTable : Tree GoType := (.node (.node (.node (.node Tree.nil 19 (.interface 5) Tree.nil) 539 (.struct 1) (.node Tree.nil 542 (.string)
  Tree.nil)) 550 (.struct 48) (.node (.node Tree.nil 554 (.struct 44) Tree.nil) 559 (.interface 46) Tree.nil)) 560 (.struct 2) (.node (.node (.node
  Tree.nil 573 (.interface 47) Tree.nil) 574 (.struct 45) Tree.nil) 578 (.struct 2) (.node (.node Tree.nil 582 (.interface 47) Tree.nil) 583
  (.interface 47) Tree.nil)))
/-- Which types implement which interfaces. -/
def implTable : Tree (Tree Unit) := (.node (.node Tree.nil 5 ((.node (.node (.node Tree.nil 27 (()) Tree.nil) 95 (()) (.node Tree.nil 2696 (())
  Tree.nil)) 2710 (()) (.node (.node Tree.nil 2711 (()) Tree.nil) 2751 (()) Tree.nil))) Tree.nil) 46 ((.node (.node (.node Tree.nil 232 (())
  Tree.nil) 2795 (()) Tree.nil) 2800 (()) (.node Tree.nil 2801 (()) Tree.nil))) (.node Tree.nil 47 ((.node (.node (.node Tree.nil 237 (()) Tree.nil)
  2865 (()) (.node Tree.nil 2871 (()) Tree.nil)) 2891 (()) (.node (.node Tree.nil 2910 (()) Tree.nil) 2915 (()) Tree.nil))) Tree.nil))
/-- Comments at return statements (`ast.NewCommentMap`). -/
def commentTable : Tree (List (List GoString)) := (.node (.node (.node (.node Tree.nil 4984 ([[s99]]) Tree.nil) 5065 ([[s100]]) (.node Tree.nil 5486
  ([[s101]]) Tree.nil)) 5547 ([[s102], [s103]]) (.node (.node Tree.nil 5576 ([[s104]]) Tree.nil) 5650 ([[s105]]) Tree.nil)) 5667 ([[s106]]) (.node
  (.node (.node Tree.nil 5687 ([[s107]]) Tree.nil) 5889 ([[s108]]) (.node Tree.nil 5911 ([[s109]]) Tree.nil)) 5992 ([[s110]]) (.node (.node Tree.nil
  6037 ([[s111]]) Tree.nil) 6137 ([[s112]]) Tree.nil)))
/-- Function declarations. -/
def declTable : Tree DeclInfo := (.node (.node (.node (.node (.node (.node Tree.nil 0 (⟨s0, true, some 4863, none, 4877, 540, [⟨4861, s1, (some
  2)⟩]⟩) Tree.nil) 1 (⟨s3, true, some 4880, none, 4894, 541, [⟨4878, s1, (some 3)⟩]⟩) Tree.nil) 2 (⟨s0, true, some 4919, none, 4940, 547, [⟨4918,
  s1, (some 9)⟩]⟩) (.node Tree.nil 3 (⟨s3, true, some 4942, none, 4974, 548, [⟨4941, s1, (some 10)⟩]⟩) Tree.nil)) 4 (⟨s12, true, none, some
  (CommentText.text [s113, s114, s115, s116, s117]), 4986, 549, []⟩) (.node (.node (.node Tree.nil 5 (⟨s0, true, some 5000, none, 5014, 551, [⟨4998,
  s1, (some 15)⟩]⟩) Tree.nil) 6 (⟨s3, true, some 5017, none, 5052, 552, [⟨5015, s1, (some 16)⟩]⟩) Tree.nil) 7 (⟨s16, true, none, some
  (CommentText.text [s113, s114, s118, s119, s120]), 5067, 553, []⟩) (.node Tree.nil 8 (⟨s18, true, some 5098, some (CommentText.text [s121, s114,
  s113, s114, s122, s123, s124]), 5169, 555, [⟨5096, s21, (some 21)⟩]⟩) Tree.nil))) 9 (⟨s26, true, some 5172, some (CommentText.text [s113, s114,
  s125, s122, s123, s124]), 5190, 556, [⟨5170, s21, (some 23)⟩]⟩) (.node (.node (.node (.node Tree.nil 10 (⟨s28, true, some 5193, some
  (CommentText.text [s126]), 5264, 557, [⟨5191, s21, (some 25)⟩]⟩) Tree.nil) 11 (⟨s29, true, some 5267, some (CommentText.text [s127, s114, s113,
  s114, s122, s123, s124]), 5343, 558, [⟨5265, s21, (some 27)⟩]⟩) Tree.nil) 12 (⟨s31, true, some 5362, some (CommentText.text [s128, s129]), 5377,
  561, []⟩) (.node Tree.nil 13 (⟨s32, true, none, some (CommentText.text [s130, s131, s114, s113, s114, s132, s120, s133, s134, s135, s136]), 5428,
  562, []⟩) Tree.nil)) 14 (⟨s35, true, none, some (CommentText.text [s137, s138, s131, s114, s113, s114, s139, s140, s141]), 5476, 563, []⟩) (.node
  (.node (.node Tree.nil 15 (⟨s37, true, none, some (CommentText.text [s142, s131, s114, s113, s114, s143, s144]), 5488, 564, []⟩) Tree.nil) 16
  (⟨s38, true, none, some (CommentText.text [s113, s114, s143, s144]), 5515, 565, []⟩) Tree.nil) 17 (⟨s40, true, none, some (CommentText.text [s145,
  s146, s114, s113, s114, s147]), 5549, 566, []⟩) (.node Tree.nil 18 (⟨s41, true, none, some (CommentText.text [s148, s149, s114, s113, s114, s150,
  s151]), 5578, 567, []⟩) Tree.nil)))) 19 (⟨s44, true, none, some (CommentText.text [s113, s114, s152, s153, s154]), 5612, 568, []⟩) (.node (.node
  (.node (.node (.node Tree.nil 20 (⟨s46, true, none, none, 5621, 569, []⟩) Tree.nil) 21 (⟨s47, true, none, some (CommentText.text [s155, s156,
  s114, s113, s114, s153, s154]), 5655, 570, []⟩) Tree.nil) 22 (⟨s48, true, none, some (CommentText.text [s113, s114, s152, s157]), 5669, 571, []⟩)
  (.node Tree.nil 23 (⟨s49, true, none, some (CommentText.text [s158, s159, s114, s113, s114, s160]), 5689, 572, []⟩) Tree.nil)) 24 (⟨s50, true,
  some 5752, some (CommentText.text [s113, s114, s161, s162]), 5801, 575, [⟨5750, s52, (some 62)⟩]⟩) (.node (.node (.node Tree.nil 25 (⟨s53, true,
  some 5804, some (CommentText.text [s113, s114, s163]), 5845, 576, [⟨5802, s52, (some 64)⟩]⟩) Tree.nil) 26 (⟨s54, true, none, some
  (CommentText.text [s164, s165]), 5864, 577, []⟩) Tree.nil) 27 (⟨s50, true, some 5872, some (CommentText.text [s113, s114, s120]), 5891, 579,
  [⟨5870, s52, (some 68)⟩]⟩) (.node Tree.nil 28 (⟨s53, true, some 5894, some (CommentText.text [s113, s114, s120]), 5913, 580, [⟨5892, s52, (some
  70)⟩]⟩) Tree.nil))) 29 (⟨s55, true, none, some (CommentText.text [s166, s167]), 5932, 581, []⟩) (.node (.node (.node (.node Tree.nil 30 (⟨s56,
  true, none, some (CommentText.text [s168, s114, s113, s114, s169]), 5994, 584, []⟩) Tree.nil) 31 (⟨s57, true, none, some (CommentText.text [s170,
  s114, s113, s114, s171, s136, s135]), 6027, 585, []⟩) Tree.nil) 32 (⟨s58, true, none, some (CommentText.text [s113, s114, s120]), 6039, 586, []⟩)
  (.node Tree.nil 33 (⟨s59, true, none, some (CommentText.text [s113, s114, s172, s136, s135]), 6066, 587, []⟩) Tree.nil)) 34 (⟨s61, true, none,
  some (CommentText.text [s113, s114, s173]), 6093, 588, []⟩) (.node (.node Tree.nil 35 (⟨s62, true, none, none, 6107, 589, []⟩) Tree.nil) 36 (⟨s63,
  true, none, some (CommentText.text [s113, s114, s174]), 6126, 590, []⟩) (.node Tree.nil 37 (⟨s64, true, none, none, 6139, 591, []⟩) Tree.nil)))))
/-- Named interfaces. -/
def interfaceTable : Tree Unit := (.node (.node (.node Tree.nil 19 (()) Tree.nil) 559 (()) Tree.nil) 573 (()) (.node (.node Tree.nil 582 (())
  Tree.nil) 583 (()) Tree.nil))
/-- Methods of named types. -/
def methodNameTable : Tree (List GoString) := (.node (.node (.node Tree.nil 539 ([s0, s3]) Tree.nil) 542 ([s0, s3]) (.node Tree.nil 550 ([s0, s3])
  Tree.nil)) 554 ([s18, s26, s28, s29]) (.node (.node Tree.nil 560 ([s31]) Tree.nil) 574 ([s50, s53]) (.node Tree.nil 578 ([s50, s53]) Tree.nil)))
/-- Objects of interface methods. -/
def methodObjTable : Tree Nat := (.node (.node (.node Tree.nil 5345 (597) Tree.nil) 5716 (598) Tree.nil) 5727 (599) (.node (.node Tree.nil 5934
  (601) Tree.nil) 5945 (602) Tree.nil))
/-- Syntax and types of the package, and the facts exported by the packages it imports. -/
def env : Env where
  funcs := [f0, f1, f2, f3, f4, f5, f6, f7, f8, f9, f10, f11, f12, f13, f14, f15, f16, f17, f18, f19, f20, f21, f22, f23, f24, f25, f26, f27, f28,
  f29, f30, f31, f32, f33, f34, f35, f36, f37]
  objects := objects
  typeOf := fun n => (typeTable.find n).getD (.other 0)
  value := valueTable.find
  callee := calleeTable.find
  uses := usesTable.find
  selection := selectionTable.find
  pkgName := pkgNameTable.find
  funcObj := fun f => ((declTable.find f).map (·.obj)).getD 0
  implError := fun t => has implErrorTable t
  implCode := fun t => has implCodeTable t
  sigResults := fun n => ((sigTable.find n).map (·.2.2)).getD 0
  methodSet := fun t name => ((typeKey t).bind methodSetTable.find).bind fun l => lookup name l
  functions := fun _ => none
  methods := fun _ => []
  comments := fun n => ((commentTable.find n).getD []).map CommentText.text
  isPrint := fun r => 32 ≤ r && r < 127
  facts := noFacts
/-- The package. -/
def package : Package where
  env := env
  decls := ⟨fun f => ((declTable.find f).map (·.name)).getD [], fun f => ((declTable.find f).map (·.exported)).getD false,
    fun f => (declTable.find f).bind (·.recv), fun f => (declTable.find f).bind (·.doc), fun t => has implCauseTable t,
    fun f => ((declTable.find f).map (·.pos)).getD 0⟩
  types := ⟨fun f => (((declTable.find f).bind (·.recv)).bind typeTable.find).getD (.other 0),
    fun f => ((declTable.find f).map (·.recvNames)).getD [], fun o => (interfaceTable.find o).isSome,
    fun o => (methodNameTable.find o).getD []⟩
  funcs := [0, 1, 2, 3, 4, 5, 6, 7, 8, 9, 10, 11, 12, 13, 14, 15, 16, 17, 18, 19, 20, 21, 22, 23, 24, 25, 26, 27, 28, 29, 30, 31, 32, 33, 34, 35,
  36, 37]
  specs := [⟨4860, .named 539, some [[s2]]⟩, ⟨4898, .named 542, none⟩, ⟨4997, .named 550, some [[s15], [s14]]⟩, ⟨5095, .named 554, some [[s24],
  [s22]]⟩, ⟨5361, .named 559, none⟩, ⟨5361, .named 560, some []⟩, ⟨5740, .named 573, none⟩, ⟨5749, .named 574, some [[s51]]⟩, ⟨5869, .named 578,
  some []⟩, ⟨5958, .named 582, none⟩, ⟨5967, .named 583, none⟩]
  ifaces := [⟨s177, 559, .interface 46, [.method ⟨5353, ⟨5345, s31, (some 31)⟩, ⟨[], (some [⟨[], 5347⟩, ⟨[], 5348⟩]), 5146⟩, some (CommentText.text
  [s113, s114, s175, s176])⟩]⟩, ⟨s181, 573, .interface 47, [.method ⟨5726, ⟨5716, s50, (some 57)⟩, ⟨[⟨[⟨5717, s51, (some 58)⟩], 5719⟩], (some [⟨[],
  5722⟩]), 10756⟩, some (CommentText.text [s178, s114, s113, s114, s161, s162, s179])⟩, .method ⟨5736, ⟨5727, s53, (some 59)⟩, ⟨[], (some [⟨[],
  5730⟩, ⟨[], 5731⟩]), 10993⟩, some (CommentText.text [s180, s114, s113, s114, s163])⟩]⟩, ⟨s184, 582, .interface 47, [.method ⟨5944, ⟨5934, s50,
  (some 74)⟩, ⟨[⟨[⟨5935, s51, (some 75)⟩], 5937⟩], (some [⟨[], 5940⟩]), 13164⟩, some (CommentText.text [s178, s114, s182])⟩, .method ⟨5954, ⟨5945,
  s53, (some 76)⟩, ⟨[], (some [⟨[], 5948⟩, ⟨[], 5949⟩]), 13366⟩, some (CommentText.text [s180, s114, s113, s114, s183])⟩]⟩, ⟨s185, 583, .interface
  47, [.embedded (.name 5960 s181), .embedded (.name 5962 s184)]⟩]
  methodObj := fun n => (methodObjTable.find n).getD 0
  conv := ⟨fun o => (underlyingTable.find o).getD (.other 0), fun n => ((sigTable.find n).map (·.1)).getD [],
    fun n => ((sigTable.find n).map (·.2.1)).getD false, fun n => (tupleTable.find n).getD [], fun n => (structTable.find n).getD [],
    fun t n => n == 3 || ((implTable.find n).map fun tr => has tr t).getD false⟩
  top := [
    .node (.other 4852 [.other 4849 [.basicLit 4848], .other 4851 [.basicLit 4850]]),
    .node (.other 4860 [.other 4859 [.ident ⟨4853, s0, (some 0)⟩, .other 4858 [.other 4857 [.other 4856 [.ident ⟨4854, s2, (some 1)⟩, .ident ⟨4855,
  s9, none⟩]]]]]),
    .func 0,
    .func 1,
    .node (.other 4898 [.other 4897 [.ident ⟨4895, s13, (some 4)⟩, .ident ⟨4896, s9, none⟩]]),
    .node (.other 4917 [.valueSpec 4901 [⟨4899, s65, (some 5)⟩] none [.basicLit 4900], .valueSpec 4906 [⟨4902, s6, (some 6)⟩] none [.other 4905
  [.ident ⟨4903, s65, (some 5)⟩, .basicLit 4904]], .valueSpec 4911 [⟨4907, s10, (some 7)⟩] none [.other 4910 [.ident ⟨4908, s65, (some 5)⟩,
  .basicLit 4909]], .valueSpec 4916 [⟨4912, s11, (some 8)⟩] none [.other 4915 [.ident ⟨4913, s65, (some 5)⟩, .basicLit 4914]]]),
    .func 2,
    .func 3,
    .func 4,
    .node (.other 4997 [.other 4996 [.ident ⟨4987, s186, (some 12)⟩, .other 4995 [.other 4994 [.other 4990 [.ident ⟨4988, s15, (some 13)⟩, .ident
  ⟨4989, s187, none⟩], .other 4993 [.ident ⟨4991, s14, (some 14)⟩, .ident ⟨4992, s9, none⟩]]]]]),
    .func 5,
    .func 6,
    .func 7,
    .node (.other 5095 [.other 5094 [.ident ⟨5083, s188, (some 18)⟩, .other 5093 [.other 5092 [.other 5088 [.ident ⟨5084, s24, (some 19)⟩, .other
  5087 [.other 5086 [.other 5085 []]]], .other 5091 [.ident ⟨5089, s22, (some 20)⟩, .ident ⟨5090, s189, none⟩]]]]]),
    .func 8,
    .func 9,
    .func 10,
    .func 11,
    .node (.other 5361 [.other 5356 [.ident ⟨5344, s177, (some 30)⟩, .other 5355 [.other 5354 [.other 5353 [.ident ⟨5345, s31, (some 31)⟩, .other
  5352 [.other 5346 [], .other 5351 [.other 5349 [.ident ⟨5347, s190, none⟩], .other 5350 [.ident ⟨5348, s191, none⟩]]]]]]], .other 5360 [.ident
  ⟨5357, s192, (some 32)⟩, .other 5359 [.other 5358 []]]]),
    .func 12,
    .node (.other 5392 [.other 5391 [.basicLit 5390]]),
    .func 13,
    .func 14,
    .func 15,
    .func 16,
    .func 17,
    .func 18,
    .func 19,
    .func 20,
    .func 21,
    .func 22,
    .func 23,
    .node (.other 5740 [.other 5739 [.ident ⟨5715, s181, (some 56)⟩, .other 5738 [.other 5737 [.other 5726 [.ident ⟨5716, s50, (some 57)⟩, .other
  5725 [.other 5721 [.other 5720 [.ident ⟨5717, s51, (some 58)⟩, .other 5719 [.other 5718 []]]], .other 5724 [.other 5723 [.ident ⟨5722, s191,
  none⟩]]]], .other 5736 [.ident ⟨5727, s53, (some 59)⟩, .other 5735 [.other 5728 [], .other 5734 [.other 5732 [.other 5730 [.other 5729 []]],
  .other 5733 [.ident ⟨5731, s191, none⟩]]]]]]]]),
    .node (.other 5749 [.other 5748 [.ident ⟨5741, s193, (some 60)⟩, .other 5747 [.other 5746 [.other 5745 [.ident ⟨5742, s51, (some 61)⟩, .other
  5744 [.other 5743 []]]]]]]),
    .func 24,
    .func 25,
    .func 26,
    .node (.other 5869 [.other 5868 [.ident ⟨5865, s194, (some 67)⟩, .other 5867 [.other 5866 []]]]),
    .func 27,
    .func 28,
    .func 29,
    .node (.other 5958 [.other 5957 [.ident ⟨5933, s184, (some 73)⟩, .other 5956 [.other 5955 [.other 5944 [.ident ⟨5934, s50, (some 74)⟩, .other
  5943 [.other 5939 [.other 5938 [.ident ⟨5935, s51, (some 75)⟩, .other 5937 [.other 5936 []]]], .other 5942 [.other 5941 [.ident ⟨5940, s191,
  none⟩]]]], .other 5954 [.ident ⟨5945, s53, (some 76)⟩, .other 5953 [.other 5946 [], .other 5952 [.other 5950 [.other 5948 [.other 5947 []]],
  .other 5951 [.ident ⟨5949, s191, none⟩]]]]]]]]),
    .node (.other 5967 [.other 5966 [.ident ⟨5959, s185, (some 77)⟩, .other 5965 [.other 5964 [.other 5961 [.ident ⟨5960, s181, (some 56)⟩], .other
  5963 [.ident ⟨5962, s184, (some 73)⟩]]]]]),
    .func 30,
    .func 31,
    .func 32,
    .func 33,
    .func 34,
    .func 35,
    .func 36,
    .func 37]
/-- The run, in one order. -/
def result : Except Stop Outcome := runVerify package Check.source true
/-- What is expected.  The comments in the package say (with facts as `object: fact`):
```
01_error_types.go:8: Error: ErrorType{Field:{Name:"TheCode", Position:0}, Codes:}
01_error_types.go:15: Error2: ErrorType{Field:<nil>, Codes:examples-error-disconnect examples-error-empty examples-error-unknown}
01_error_types.go:41: ReturnError2: ErrorCodes: examples-error-disconnect examples-error-empty examples-error-unknown
01_error_types.go:45: Error3: ErrorType{Field:{Name:"code", Position:1}, Codes:examples-error-flagged examples-error-unknown}
01_error_types.go:66: ReturnError3: ErrorCodes: examples-error-flagged examples-error-not-implemented examples-error-unknown
02_basic_examples.go:15: Add: ErrorCodes: examples-error-invalid-arg examples-error-invalid-collection examples-error-limit-reached
02_basic_examples.go:38: AddUnused: ErrorCodes: examples-error-invalid-arg examples-error-invalid-collection examples-error-limit-reached
02_basic_examples.go:38: function "AddUnused" has a mismatch of declared and actual error codes: unused codes: \[examples-error-invalid-arg examples-error-invalid-collection examples-error-limit-reached]
02_basic_examples.go:46: AddMissing: ErrorCodes:
02_basic_examples.go:46: function "AddMissing" has a mismatch of declared and actual error codes: missing codes: \[examples-error-invalid-arg examples-error-invalid-collection examples-error-limit-reached]
02_basic_examples.go:73: AddAlt: ErrorCodes: examples-error-invalid-arg examples-error-invalid-collection examples-error-limit-reached
02_basic_examples.go:91: IO: ErrorInterface: Read
02_basic_examples.go:96: Read: ErrorCodes: examples-error-disconnect examples-error-io
02_basic_examples.go:103: Read: ErrorCodes:
03_error_code_origins.go:16: TypeConstruction: ErrorCodes: examples-error-closed examples-error-flagged examples-error-not-implemented examples-error-unknown
03_error_code_origins.go:37: AssignmentToErrorCodeField: ErrorCodes: examples-error-one examples-error-unkown examples-error-zero
03_error_code_origins.go:46: error code has to be constant value or error code parameter
03_error_code_origins.go:58: FunctionCall: ErrorCodes: examples-error-failed examples-error-invalid-name
03_error_code_origins.go:66: TryOpen: ErrorCodes: examples-error-failed examples-error-invalid-name
04_annotations.go:9: Overwrite: ErrorCodes: examples-error-overwritten
04_annotations.go:21: OverwriteMultiple: ErrorCodes: examples-error-one examples-error-two
04_annotations.go:36: MultipleCodes: ErrorCodes: examples-error-one examples-error-three examples-error-two
04_annotations.go:57: SubtractCode: ErrorCodes: examples-error-three examples-error-two
04_annotations.go:74: AddSubCode: ErrorCodes: examples-error-extra examples-error-one
04_annotations.go:86: AssignmentProblem: ErrorCodes: assigned-error
05_interfaces.go:3: Box: ErrorInterface: Pop Put
05_interfaces.go:11: Put: ErrorCodes: examples-error-arg-nil examples-error-invalid
05_interfaces.go:18: Pop: ErrorCodes: examples-error-invalid
05_interfaces.go:29: Put: ErrorCodes: examples-error-arg-nil examples-error-invalid
05_interfaces.go:45: Pop: ErrorCodes: examples-error-invalid
05_interfaces.go:66: Put: ErrorCodes: examples-error-not-implemented
05_interfaces.go:73: Pop: ErrorCodes: examples-error-not-implemented
05_interfaces.go:80: cannot use expression as "Box" value: method "Put" declares the following error codes which were not part of the interface: \[examples-error-not-implemented]
05_interfaces.go:80: cannot use expression as "Box" value: method "Pop" declares the following error codes which were not part of the interface: \[examples-error-not-implemented]
05_interfaces.go:87: Box2: ErrorInterface: Pop Put
05_interfaces.go:91: Put: ErrorCodes:
05_interfaces.go:98: Pop: ErrorCodes: examples-error-invalid
05_interfaces.go:101: EmbeddingBox: ErrorInterface: Pop Put
05_interfaces.go:103: embedded interface is not compatible: method "Put" has mismatches in declared error codes: missing codes: \[examples-error-arg-nil examples-error-invalid examples-error-unknown]
06_error_constructors.go:8: NewError: ErrorConstructor: {CodeParamPosition:0}
06_error_constructors.go:8: NewError: ErrorCodes:
06_error_constructors.go:19: NewError3: ErrorConstructor: {CodeParamPosition:1}
06_error_constructors.go:19: NewError3: ErrorCodes: examples-error-flagged examples-error-unknown
06_error_constructors.go:30: CallConstructor: ErrorCodes: examples-error-not-implemented
06_error_constructors.go:39: NewGeneralError: ErrorConstructor: {CodeParamPosition:1}
06_error_constructors.go:39: NewGeneralError: ErrorCodes: examples-error-flagged examples-error-unknown
07_limitations.go:6: CallModifyError: ErrorCodes: examples-error-invalid
07_limitations.go:19: DeadBranchError: ErrorCodes: example-error-unreachable
07_limitations.go:26: error should be returned as the last argument
``` -/
def expected : Check.Expected where
  tags := []
  ifaces := [{ at_ := 5962, msg := Serum.IfaceMsg.incompatible b!"Put" b!"missing codes: [examples-error-arg-nil examples-error-invalid examples-error-unknown]" }]
  signatures := [{ at_ := 6129, msg := Serum.ClaimMsg.errorNotLast }]
  claims := []
  bodies := [(14, { at_ := 5468, msg := Serum.Msg.notConstant })]
  mismatches := [(9, b!"unused codes: [examples-error-invalid-arg examples-error-invalid-collection examples-error-limit-reached]"),
    (10, b!"missing codes: [examples-error-invalid-arg examples-error-invalid-collection examples-error-limit-reached]")]
  conversions := [{ at_ := 5921, interface := some 573, method := b!"Pop", codes := [b!"examples-error-not-implemented"] },
    { at_ := 5921, interface := some 573, method := b!"Put", codes := [b!"examples-error-not-implemented"] }]
  codes := [(549, [b!"examples-error-empty", b!"examples-error-disconnect", b!"examples-error-unknown"]),
    (553, [b!"examples-error-flagged", b!"examples-error-unknown", b!"examples-error-not-implemented"]),
    (555, [b!"examples-error-invalid-arg", b!"examples-error-invalid-collection", b!"examples-error-limit-reached"]),
    (556, [b!"examples-error-invalid-arg", b!"examples-error-invalid-collection", b!"examples-error-limit-reached"]),
    (557, []),
    (558, [b!"examples-error-invalid-arg", b!"examples-error-invalid-collection", b!"examples-error-limit-reached"]),
    (561, []),
    (562, [b!"examples-error-not-implemented", b!"examples-error-closed", b!"examples-error-flagged", b!"examples-error-unknown"]),
    (563, [b!"examples-error-unkown", b!"examples-error-zero", b!"examples-error-one"]),
    (564, [b!"examples-error-failed", b!"examples-error-invalid-name"]),
    (565, [b!"examples-error-failed", b!"examples-error-invalid-name"]),
    (566, [b!"examples-error-overwritten"]),
    (567, [b!"examples-error-one", b!"examples-error-two"]),
    (568, [b!"examples-error-one", b!"examples-error-two", b!"examples-error-three"]),
    (570, [b!"examples-error-two", b!"examples-error-three"]),
    (571, [b!"examples-error-one", b!"examples-error-extra"]),
    (572, [b!"assigned-error"]),
    (575, [b!"examples-error-arg-nil", b!"examples-error-invalid"]),
    (576, [b!"examples-error-invalid"]),
    (579, [b!"examples-error-not-implemented"]),
    (580, [b!"examples-error-not-implemented"]),
    (584, []),
    (585, [b!"examples-error-unknown", b!"examples-error-flagged"]),
    (586, [b!"examples-error-not-implemented"]),
    (587, [b!"examples-error-unknown", b!"examples-error-flagged"]),
    (588, [b!"examples-error-invalid"]),
    (590, [b!"example-error-unreachable"]),
    (597, [b!"examples-error-io", b!"examples-error-disconnect"]),
    (598, [b!"examples-error-arg-nil", b!"examples-error-invalid", b!"examples-error-unknown"]),
    (599, [b!"examples-error-invalid"]),
    (601, []),
    (602, [b!"examples-error-invalid"])]
  ctors := [(584, 0),
    (585, 1),
    (587, 1)]
  errorTypes := [(539, { codes := [], field := some { name := b!"TheCode", position := 0 } }),
    (542, { codes := [b!"examples-error-empty", b!"examples-error-disconnect", b!"examples-error-unknown"], field := none }),
    (550, { codes := [b!"examples-error-unknown", b!"examples-error-flagged"], field := some { name := b!"code", position := 1 } })]
  interfaces := [(559, [(b!"Read", [b!"examples-error-io", b!"examples-error-disconnect"])]),
    (573, [(b!"Pop", [b!"examples-error-invalid"]), (b!"Put", [b!"examples-error-arg-nil", b!"examples-error-invalid", b!"examples-error-unknown"])]),
    (582, [(b!"Pop", [b!"examples-error-invalid"]), (b!"Put", [])]),
    (583, [(b!"Put", [b!"examples-error-arg-nil", b!"examples-error-invalid", b!"examples-error-unknown"]), (b!"Pop", [b!"examples-error-invalid"])])]
  objects := 1385

/-- What functions call, and which literals they visit. -/
def graph : Check.Graph :=
  [([], []), ([], []), ([], []), ([], []), ([], []), ([], []), ([], []), ([], []), ([], []), ([], []), ([], []), ([], []), ([], []), ([], []),
  ([], []), ([16], []), ([], []), ([], []), ([], []), ([], []), ([], []), ([19], []), ([19], []), ([], []), ([], []), ([], []), ([], []), ([],
  []), ([], []), ([], []), ([], []), ([], []), ([30], []), ([31, 30], []), ([], []), ([], []), ([], []), ([], [])]

theorem checked : Check.run package true expected graph = true := by decide +kernel

theorem imports : Check.Tables package.env.facts := tables_noFacts

theorem exported : Check.Tables (Check.factsOf result) := Check.tables checked imports

/-- The facts known before a run: those exported by some run over the imported packages. -/
def Imported (F : Facts) : Prop :=
  F = noFacts

/-- The facts known after a run. -/
def Exports (F : Facts) : Prop := Check.Exports package Imported true F

theorem imports_same (F : Facts) (h : Imported F) : Props.Run.SameFacts package.env.facts F := by
  obtain rfl := h
  exact (.refl _)

theorem exports_same {F : Facts} (h : Exports F) : Props.Run.SameFacts (Check.factsOf result) F :=
  Check.exports_same checked imports imports_same h

/-- **C54**: every run over the package has the expected result. -/
theorem always : Check.Always package Imported true expected :=
  Check.always checked imports imports_same

/-- For the nodes with diagnostics: file, line, and type of node. -/
def nodes : Tree (GoString × Nat × GoString) :=
  (.node (.node (.node Tree.nil 5190 ((b!"02_basic_examples.go", 38, b!"FuncDecl")) Tree.nil) 5264 ((b!"02_basic_examples.go", 46, b!"FuncDecl")) (.node Tree.nil 5468 ((b!"03_error_code_origins.go", 46, b!"CallExpr")) Tree.nil)) 5921 ((b!"05_interfaces.go", 80, b!"UnaryExpr")) (.node (.node Tree.nil 5962 ((b!"05_interfaces.go", 103, b!"Ident")) Tree.nil) 6129 ((b!"07_limitations.go", 26, b!"Ident")) Tree.nil))

/-- The names of the objects named in diagnostics other than by identifiers. -/
def objectNames : Tree GoString :=
  (.node Tree.nil 573 (b!"Box") Tree.nil)

def names : Names where
  object := fun o => (objectNames.find o).getD []
  kind := fun n => ((nodes.find n).map fun p => p.2.2).getD []

def place (n : NodeId) : GoString × Nat := ((nodes.find n).map fun p => (p.1, p.2.1)).getD ([], 0)

/-- What is printed: file, line and text. -/
def lines : List Check.Line := [(b!"05_interfaces.go", 103, b!"embedded interface is not compatible: method \"Put\" has mismatches in declared error codes: missing codes: [examples-error-arg-nil examples-error-invalid examples-error-unknown]"),
    (b!"07_limitations.go", 26, b!"error should be returned as the last argument"),
    (b!"03_error_code_origins.go", 46, b!"error code has to be constant value or error code parameter"),
    (b!"02_basic_examples.go", 38, b!"function \"AddUnused\" has a mismatch of declared and actual error codes: unused codes: [examples-error-invalid-arg examples-error-invalid-collection examples-error-limit-reached]"),
    (b!"02_basic_examples.go", 46, b!"function \"AddMissing\" has a mismatch of declared and actual error codes: missing codes: [examples-error-invalid-arg examples-error-invalid-collection examples-error-limit-reached]"),
    (b!"05_interfaces.go", 80, b!"cannot use expression as \"Box\" value: method \"Pop\" declares the following error codes which were not part of the interface: [examples-error-not-implemented]"),
    (b!"05_interfaces.go", 80, b!"cannot use expression as \"Box\" value: method \"Put\" declares the following error codes which were not part of the interface: [examples-error-not-implemented]")]

/-- **C54**: for every run over the package, these lines are printed. -/
theorem prints : Check.Prints package Imported true names place lines :=
  Check.prints always (by decide +kernel)

end Serum.Testdata.examples
