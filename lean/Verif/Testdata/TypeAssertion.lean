import Verif.Testdata.Support

/-!
# C54: the package analysis/testdata/src/type_assertion

Generated by `scripts/conformance/testdata.py` from assert.go, definitions.go.  Numbers of syntax nodes, objects and types are arbitrary.  The tables hold
what `go/parser` and `go/types` say about the package.
-/

set_option maxRecDepth 100000
set_option linter.all false

namespace Serum.Testdata.typeAssertion
open Serum Serum.Testdata

def s0 : GoString := b!"TypeAssertionMethod"
def s1 : GoString := b!"value"
def s2 : GoString := b!"Method"
def s3 : GoString := b!"TypeAssertionInterface"
def s4 : GoString := b!"EmptyInterfaceError"
def s5 : GoString := b!"TypeAssertion"
def s6 : GoString := b!"StandardError"
def s7 : GoString := b!"TypeAssertionNoCodes"
def s8 : GoString := b!"TypeAssertionMultipleTypes"
def s9 : GoString := b!"err"
def s10 : GoString := b!"MaybeError"
def s11 : GoString := b!"nil"
def s12 : GoString := b!"ok"
def s13 : GoString := b!"TypeAssertionSwitch"
def s14 : GoString := b!"x"
def s15 : GoString := b!"Error"
def s16 : GoString := b!"TypeAssertionSwitchFromNonError"
def s17 : GoString := b!"iface"
def s18 : GoString := b!"ErrorInterface"
def s19 : GoString := b!"rand"
def s20 : GoString := b!"Float64"
def s21 : GoString := b!"Code"
def s22 : GoString := b!"e"
def s23 : GoString := b!"TheCode"
def s24 : GoString := b!"Message"
def s25 : GoString := b!"Details"
def s26 : GoString := b!"Cause"
def s27 : GoString := b!"interface-error"
def s28 : GoString := b!"standard-error"
def s29 : GoString := b!"empty-interface-error"
def s30 : GoString := b!"maybe-error"
def s31 : GoString := b!"// want TypeAssertionInterface:\"ErrorCodes: empty-interface-error\""
def s32 : GoString := b!"// want TypeAssertion:\"ErrorCodes: standard-error\""
def s33 : GoString := b!"// want `function \"TypeAssertionNoCodes\" is exported, but does not declare any error codes`"
def s34 : GoString := b!"// want Method:\"ErrorCodes: interface-error\""
def s35 : GoString := b!"// want StandardError:\"ErrorCodes: standard-error\""
def s36 : GoString := b!"// Errors:"
def s37 : GoString := b!"//"
def s38 : GoString := b!"//  - interface-error --"
def s39 : GoString := b!"//  - empty-interface-error --"
def s40 : GoString := b!"// - standard-error --"
def s41 : GoString := b!"// - maybe-error -- sometimes"
def s42 : GoString := b!"// - standard-error -- never but the analyser doesn't know that"
def s43 : GoString := b!"//   - empty-interface-error -- always"
def s44 : GoString := b!"//   - standard-error -- never"
def s45 : GoString := b!"//    - interface-error -- always"
def s46 : GoString := b!"//    - standard-error -- always"
def s47 : GoString := b!"// EmptyInterfaceError isn't detected by serum-analyzer as an error return type"
def s48 : GoString := b!"//   - maybe-error -- sometimes"
def s49 : GoString := b!"error"
def s50 : GoString := b!"Receiver"
def s51 : GoString := b!"string"
/-- assert.go:6: `func TypeAssertionMethod` -/
def f0 : FuncDef := ⟨14130, some ⟨14110, s0, (some 0)⟩, ⟨[], (some [⟨[], 14113⟩]), 89⟩, some [.assign 14123 [.ident ⟨14117, s1, (some 1)⟩] [.call
  14122 (.selector 14121 (.compositeLit 14119 []) ⟨14120, s2, none⟩) []], .ret 14128 [.typeAssert 14127 (.ident ⟨14124, s1, (some 1)⟩) (some
  14126)]], 96, 210⟩
/-- assert.go:14: `func TypeAssertionInterface` -/
def f1 : FuncDef := ⟨14143, some ⟨14131, s3, (some 2)⟩, ⟨[], (some [⟨[], 14133⟩]), 287⟩, some [.ret 14141 [.typeAssert 14140 (.call 14138 (.ident
  ⟨14137, s4, none⟩) []) (some 14139)]], 293, 401⟩
/-- assert.go:21: `func TypeAssertion` -/
def f2 : FuncDef := ⟨14158, some ⟨14144, s5, (some 3)⟩, ⟨[], (some [⟨[], 14147⟩]), 461⟩, some [.ret 14156 [.typeAssert 14155 (.call 14152 (.ident
  ⟨14151, s6, none⟩) []) (some 14154)]], 468, 555⟩
/-- assert.go:25: `func TypeAssertionNoCodes` -/
def f3 : FuncDef := ⟨14173, some ⟨14159, s7, (some 4)⟩, ⟨[], (some [⟨[], 14162⟩]), 585⟩, some [.ret 14171 [.typeAssert 14170 (.call 14167 (.ident
  ⟨14166, s6, none⟩) []) (some 14169)]], 592, 720⟩
/-- assert.go:33: `func TypeAssertionMultipleTypes` -/
def f4 : FuncDef := ⟨14208, some ⟨14174, s8, (some 5)⟩, ⟨[], (some [⟨[], 14176⟩]), 864⟩, some [.other 14204 [.assign 14183 [.ident ⟨14180, s9, (some
  6)⟩] [.call 14182 (.ident ⟨14181, s10, none⟩) []], .other 14186 [.ident ⟨14184, s9, (some 6)⟩, .ident ⟨14185, s11, none⟩], .other 14203 [.other
  14199 [.assign 14193 [.ident ⟨14188, s9, (some 7)⟩, .ident ⟨14189, s12, (some 8)⟩] [.typeAssert 14192 (.ident ⟨14190, s9, (some 6)⟩) (some
  14191)], .ident ⟨14194, s12, (some 8)⟩, .other 14198 [.ret 14197 [.ident ⟨14196, s9, (some 7)⟩]]], .ret 14202 [.call 14201 (.ident ⟨14200, s6,
  none⟩) []]]], .ret 14206 [.ident ⟨14205, s11, none⟩]], 870, 1088⟩
/-- assert.go:47: `func TypeAssertionSwitch` -/
def f5 : FuncDef := ⟨14239, some ⟨14209, s13, (some 9)⟩, ⟨[], (some [⟨[], 14211⟩]), 1225⟩, some [.assign 14218 [.ident ⟨14215, s9, (some 10)⟩]
  [.call 14217 (.ident ⟨14216, s10, none⟩) []], .typeSwitch 14237 [] (.assign 14222 [.ident ⟨14219, s14, (some 11)⟩] [.typeAssert 14221 (.ident
  ⟨14220, s9, (some 10)⟩) none]) [.caseClause 14227 [.other 14224 [.ident ⟨14223, s15, none⟩]] [.ret 14226 [.ident ⟨14225, s14, (some 11)⟩]],
  .caseClause 14231 [.ident ⟨14228, s11, none⟩] [.ret 14230 [.ident ⟨14229, s11, none⟩]], .caseClause 14235 [] [.ret 14234 [.call 14233 (.ident
  ⟨14232, s6, none⟩) []]]]], 1231, 1437⟩
/-- assert.go:63: `func TypeAssertionSwitchFromNonError` -/
def f6 : FuncDef := ⟨14274, some ⟨14240, s16, (some 12)⟩, ⟨[], (some [⟨[], 14242⟩]), 1562⟩, some [.assign 14249 [.ident ⟨14246, s17, (some 13)⟩]
  [.call 14248 (.ident ⟨14247, s4, none⟩) []], .typeSwitch 14272 [] (.assign 14253 [.ident ⟨14250, s9, (some 14)⟩] [.typeAssert 14252 (.ident
  ⟨14251, s17, (some 13)⟩) none]) [.caseClause 14258 [.other 14255 [.ident ⟨14254, s15, none⟩]] [.ret 14257 [.ident ⟨14256, s9, (some 14)⟩]],
  .caseClause 14262 [.ident ⟨14259, s18, none⟩] [.ret 14261 [.ident ⟨14260, s9, (some 14)⟩]], .caseClause 14266 [.ident ⟨14263, s11, none⟩] [.ret
  14265 [.ident ⟨14264, s11, none⟩]], .caseClause 14270 [] [.ret 14269 [.call 14268 (.ident ⟨14267, s6, none⟩) []]]]], 1568, 1848⟩
/-- definitions.go:12: `func Method` -/
def f7 : FuncDef := ⟨14308, some ⟨14296, s2, none⟩, ⟨[], (some [⟨[], 14298⟩]), 2004⟩, some [.ret 14306 [.unary 14305 true (.compositeLit 14304
  [.basicLit 14303])]], 2010, 2092⟩
/-- definitions.go:19: `func StandardError` -/
def f8 : FuncDef := ⟨14321, some ⟨14309, s6, (some 17)⟩, ⟨[], (some [⟨[], 14311⟩]), 2162⟩, some [.ret 14319 [.unary 14318 true (.compositeLit 14317
  [.basicLit 14316])]], 2168, 2255⟩
/-- definitions.go:24: `func EmptyInterfaceError` -/
def f9 : FuncDef := ⟨14335, some ⟨14322, s4, (some 18)⟩, ⟨[], (some [⟨[], 14325⟩]), 2364⟩, some [.ret 14333 [.unary 14332 true (.compositeLit 14331
  [.basicLit 14330])]], 2376, 2419⟩
/-- definitions.go:31: `func MaybeError` -/
def f10 : FuncDef := ⟨14359, some ⟨14336, s10, (some 19)⟩, ⟨[], (some [⟨[], 14338⟩]), 2485⟩, some [.other 14355 [.other 14347 [.call 14345
  (.selector 14344 (.ident ⟨14342, s19, none⟩) ⟨14343, s20, none⟩) [], .basicLit 14346], .other 14354 [.ret 14353 [.unary 14352 true (.compositeLit
  14351 [.basicLit 14350])]]], .ret 14357 [.ident ⟨14356, s11, none⟩]], 2491, 2612⟩
/-- definitions.go:42: `func Code` -/
def f11 : FuncDef := ⟨14384, some ⟨14373, s21, none⟩, ⟨[], (some [⟨[], 14375⟩]), 2746⟩, some [.ret 14382 [.selector 14381 (.ident ⟨14379, s22, (some
  21)⟩) ⟨14380, s23, none⟩]], 2767, 2787⟩
/-- definitions.go:43: `func Message` -/
def f12 : FuncDef := ⟨14401, some ⟨14390, s24, none⟩, ⟨[], (some [⟨[], 14392⟩]), 2814⟩, some [.ret 14399 [.selector 14398 (.ident ⟨14396, s22, (some
  22)⟩) ⟨14397, s23, none⟩]], 2832, 2852⟩
/-- definitions.go:44: `func Details` -/
def f13 : FuncDef := ⟨14418, some ⟨14407, s25, none⟩, ⟨[], (some [⟨[], 14411⟩]), 2879⟩, some [.ret 14416 [.ident ⟨14415, s11, none⟩]], 2897, 2911⟩
/-- definitions.go:45: `func Cause` -/
def f14 : FuncDef := ⟨14433, some ⟨14424, s26, none⟩, ⟨[], (some [⟨[], 14426⟩]), 2936⟩, some [.ret 14431 [.ident ⟨14430, s11, none⟩]], 2956, 2970⟩
/-- definitions.go:46: `func Error` -/
def f15 : FuncDef := ⟨14451, some ⟨14439, s15, none⟩, ⟨[], (some [⟨[], 14441⟩]), 2995⟩, some [.ret 14449 [.call 14448 (.selector 14447 (.ident
  ⟨14445, s22, (some 25)⟩) ⟨14446, s24, none⟩) []]], 3015, 3037⟩
/-- The objects of go/ast, in the order of their numbers. -/
def objects : List ObjInfo := [
  ⟨.fun_, 67, (.funcDecl 0)⟩,
  ⟨.var, 157, .other⟩,
  ⟨.fun_, 262, (.funcDecl 1)⟩,
  ⟨.fun_, 445, (.funcDecl 2)⟩,
  ⟨.fun_, 562, (.funcDecl 3)⟩,
  ⟨.fun_, 835, (.funcDecl 4)⟩,
  ⟨.var, 952, .other⟩,
  ⟨.var, 991, .other⟩,
  ⟨.var, 996, .other⟩,
  ⟨.fun_, 1203, (.funcDecl 5)⟩,
  ⟨.var, 1303, .other⟩,
  ⟨.var, 1331, .other⟩,
  ⟨.fun_, 1528, (.funcDecl 6)⟩,
  ⟨.var, 1662, .other⟩,
  ⟨.var, 1701, .other⟩,
  ⟨.typ, 1912, .typeSpec⟩,
  ⟨.typ, 2619, .typeSpec⟩,
  ⟨.fun_, 2146, (.funcDecl 8)⟩,
  ⟨.fun_, 2342, (.funcDecl 9)⟩,
  ⟨.fun_, 2472, (.funcDecl 10)⟩,
  ⟨.var, 2705, .other⟩,
  ⟨.var, 2729, .other⟩,
  ⟨.var, 2794, .other⟩,
  ⟨.var, 2859, .other⟩,
  ⟨.var, 2918, .other⟩,
  ⟨.var, 2977, .other⟩,
  ⟨.typ, 3044, .typeSpec⟩,
  ⟨.fun_, 3079, .other⟩]
/-- Types of expressions (`Info.Types`, `Info.Defs`, `Info.Uses`). -/
def typeTable : Tree GoType := (.node (.node (.node (.node (.node (.node (.node (.node Tree.nil 14110 (.signature 142) Tree.nil) 14112 (.named 1358)
  Tree.nil) 14113 (.pointer (.named 1358)) (.node (.node Tree.nil 14116 (.signature 142) Tree.nil) 14117 (.named 19) Tree.nil)) 14118 (.named 1353)
  (.node (.node (.node Tree.nil 14119 (.named 1353) Tree.nil) 14120 (.signature 6) Tree.nil) 14121 (.signature 6) (.node (.node Tree.nil 14122
  (.named 19) Tree.nil) 14124 (.named 19) Tree.nil))) 14125 (.named 1358) (.node (.node (.node (.node Tree.nil 14126 (.pointer (.named 1358))
  Tree.nil) 14127 (.pointer (.named 1358)) Tree.nil) 14131 (.signature 6) (.node (.node Tree.nil 14133 (.named 19) Tree.nil) 14136 (.signature 6)
  Tree.nil)) 14137 (.signature 143) (.node (.node (.node Tree.nil 14138 (.interface 3) Tree.nil) 14139 (.named 19) Tree.nil) 14140 (.named 19)
  (.node Tree.nil 14144 (.signature 142) Tree.nil)))) 14146 (.named 1358) (.node (.node (.node (.node (.node Tree.nil 14147 (.pointer (.named 1358))
  Tree.nil) 14150 (.signature 142) Tree.nil) 14151 (.signature 6) (.node (.node Tree.nil 14152 (.named 19) Tree.nil) 14153 (.named 1358) Tree.nil))
  14154 (.pointer (.named 1358)) (.node (.node (.node Tree.nil 14155 (.pointer (.named 1358)) Tree.nil) 14159 (.signature 142) Tree.nil) 14161
  (.named 1358) (.node Tree.nil 14162 (.pointer (.named 1358)) Tree.nil))) 14165 (.signature 142) (.node (.node (.node (.node Tree.nil 14166
  (.signature 6) Tree.nil) 14167 (.named 19) Tree.nil) 14168 (.named 1358) (.node (.node Tree.nil 14169 (.pointer (.named 1358)) Tree.nil) 14170
  (.pointer (.named 1358)) Tree.nil)) 14174 (.signature 6) (.node (.node (.node Tree.nil 14176 (.named 19) Tree.nil) 14179 (.signature 6) Tree.nil)
  14180 (.named 19) (.node Tree.nil 14181 (.signature 6) Tree.nil))))) 14182 (.named 19) (.node (.node (.node (.node (.node (.node Tree.nil 14184
  (.named 19) Tree.nil) 14185 (.untypedNil) Tree.nil) 14186 (.other 10) (.node (.node Tree.nil 14188 (.named 1364) Tree.nil) 14189 (.other 10)
  Tree.nil)) 14190 (.named 19) (.node (.node (.node Tree.nil 14191 (.named 1364) Tree.nil) 14192 (.tuple 144) Tree.nil) 14194 (.other 10) (.node
  (.node Tree.nil 14196 (.named 1364) Tree.nil) 14200 (.signature 6) Tree.nil))) 14201 (.named 19) (.node (.node (.node (.node Tree.nil 14205
  (.untypedNil) Tree.nil) 14209 (.signature 6) Tree.nil) 14211 (.named 19) (.node (.node Tree.nil 14214 (.signature 6) Tree.nil) 14215 (.named 19)
  Tree.nil)) 14216 (.signature 6) (.node (.node (.node Tree.nil 14217 (.named 19) Tree.nil) 14220 (.named 19) Tree.nil) 14223 (.named 1358) (.node
  Tree.nil 14224 (.pointer (.named 1358)) Tree.nil)))) 14225 (.pointer (.named 1358)) (.node (.node (.node (.node (.node Tree.nil 14228
  (.untypedNil) Tree.nil) 14229 (.untypedNil) Tree.nil) 14232 (.signature 6) (.node (.node Tree.nil 14233 (.named 19) Tree.nil) 14240 (.signature 6)
  Tree.nil)) 14242 (.named 19) (.node (.node (.node Tree.nil 14245 (.signature 6) Tree.nil) 14246 (.interface 3) Tree.nil) 14247 (.signature 143)
  (.node Tree.nil 14248 (.interface 3) Tree.nil))) 14251 (.interface 3) (.node (.node (.node (.node Tree.nil 14254 (.named 1358) Tree.nil) 14255
  (.pointer (.named 1358)) Tree.nil) 14256 (.pointer (.named 1358)) (.node (.node Tree.nil 14259 (.named 1364) Tree.nil) 14260 (.named 1364)
  Tree.nil)) 14263 (.untypedNil) (.node (.node (.node Tree.nil 14264 (.untypedNil) Tree.nil) 14267 (.signature 6) Tree.nil) 14268 (.named 19) (.node
  Tree.nil 14288 (.named 1353) Tree.nil)))))) 14290 (.struct 2) (.node (.node (.node (.node (.node (.node (.node Tree.nil 14293 (.named 1353)
  Tree.nil) 14296 (.signature 6) Tree.nil) 14298 (.named 19) (.node (.node Tree.nil 14301 (.signature 6) Tree.nil) 14302 (.named 1358) Tree.nil))
  14303 (.string) (.node (.node (.node Tree.nil 14304 (.named 1358) Tree.nil) 14305 (.pointer (.named 1358)) Tree.nil) 14309 (.signature 6) (.node
  (.node Tree.nil 14311 (.named 19) Tree.nil) 14314 (.signature 6) Tree.nil))) 14315 (.named 1358) (.node (.node (.node (.node Tree.nil 14316
  (.string) Tree.nil) 14317 (.named 1358) Tree.nil) 14318 (.pointer (.named 1358)) (.node (.node Tree.nil 14322 (.signature 143) Tree.nil) 14325
  (.interface 3) Tree.nil)) 14328 (.signature 143) (.node (.node (.node Tree.nil 14329 (.named 1358) Tree.nil) 14330 (.string) Tree.nil) 14331
  (.named 1358) (.node Tree.nil 14332 (.pointer (.named 1358)) Tree.nil)))) 14336 (.signature 6) (.node (.node (.node (.node (.node Tree.nil 14338
  (.named 19) Tree.nil) 14341 (.signature 6) Tree.nil) 14343 (.signature 146) (.node (.node Tree.nil 14344 (.signature 146) Tree.nil) 14345 (.other
  145) Tree.nil)) 14346 (.other 145) (.node (.node (.node Tree.nil 14347 (.other 10) Tree.nil) 14349 (.named 1358) Tree.nil) 14350 (.string) (.node
  Tree.nil 14351 (.named 1358) Tree.nil))) 14352 (.pointer (.named 1358)) (.node (.node (.node (.node Tree.nil 14356 (.untypedNil) Tree.nil) 14360
  (.named 1358) Tree.nil) 14361 (.string) (.node (.node Tree.nil 14362 (.string) Tree.nil) 14365 (.struct 1) Tree.nil)) 14368 (.pointer (.named
  1358)) (.node (.node (.node Tree.nil 14369 (.named 1358) Tree.nil) 14370 (.pointer (.named 1358)) Tree.nil) 14373 (.signature 11) (.node Tree.nil
  14375 (.string) Tree.nil))))) 14378 (.signature 11) (.node (.node (.node (.node (.node (.node Tree.nil 14379 (.pointer (.named 1358)) Tree.nil)
  14380 (.string) Tree.nil) 14381 (.string) (.node (.node Tree.nil 14385 (.pointer (.named 1358)) Tree.nil) 14386 (.named 1358) Tree.nil)) 14387
  (.pointer (.named 1358)) (.node (.node (.node Tree.nil 14390 (.signature 11) Tree.nil) 14392 (.string) Tree.nil) 14395 (.signature 11) (.node
  (.node Tree.nil 14396 (.pointer (.named 1358)) Tree.nil) 14397 (.string) Tree.nil))) 14398 (.string) (.node (.node (.node (.node Tree.nil 14402
  (.pointer (.named 1358)) Tree.nil) 14403 (.named 1358) Tree.nil) 14404 (.pointer (.named 1358)) (.node (.node Tree.nil 14407 (.signature 23)
  Tree.nil) 14409 (.string) Tree.nil)) 14410 (.string) (.node (.node (.node Tree.nil 14411 (.map (.string) (.string)) Tree.nil) 14414 (.signature
  23) Tree.nil) 14415 (.untypedNil) (.node Tree.nil 14419 (.pointer (.named 1358)) Tree.nil)))) 14420 (.named 1358) (.node (.node (.node (.node
  (.node Tree.nil 14421 (.pointer (.named 1358)) Tree.nil) 14424 (.signature 6) Tree.nil) 14426 (.named 19) (.node (.node Tree.nil 14429 (.signature
  6) Tree.nil) 14430 (.untypedNil) Tree.nil)) 14434 (.pointer (.named 1358)) (.node (.node (.node Tree.nil 14435 (.named 1358) Tree.nil) 14436
  (.pointer (.named 1358)) Tree.nil) 14439 (.signature 11) (.node Tree.nil 14441 (.string) Tree.nil))) 14444 (.signature 11) (.node (.node (.node
  (.node Tree.nil 14445 (.pointer (.named 1358)) Tree.nil) 14446 (.signature 11) Tree.nil) 14447 (.signature 11) (.node (.node Tree.nil 14448
  (.string) Tree.nil) 14452 (.named 1364) Tree.nil)) 14453 (.named 19) (.node (.node (.node Tree.nil 14455 (.signature 11) Tree.nil) 14457 (.string)
  Tree.nil) 14460 (.signature 11) (.node Tree.nil 14463 (.interface 141) Tree.nil)))))))
/-- Constant values of expressions. -/
def valueTable : Tree Const := (.node (.node (.node Tree.nil 14303 (.str s27) Tree.nil) 14316 (.str s28) Tree.nil) 14330 (.str s29) (.node (.node
  Tree.nil 14346 (.other) Tree.nil) 14350 (.str s30) Tree.nil))
/-- `typeutil.Callee` of call expressions. -/
def calleeTable : Tree Nat := (.node (.node (.node (.node Tree.nil 14122 (1354) Tree.nil) 14138 (1356) (.node Tree.nil 14152 (1355) Tree.nil)) 14167
  (1355) (.node (.node Tree.nil 14182 (1357) Tree.nil) 14201 (1355) Tree.nil)) 14217 (1357) (.node (.node (.node Tree.nil 14233 (1355) Tree.nil)
  14248 (1356) Tree.nil) 14268 (1355) (.node (.node Tree.nil 14345 (1344) Tree.nil) 14448 (1360) Tree.nil)))
/-- `Info.Uses`. -/
def usesTable : Tree Nat := (.node (.node (.node (.node (.node (.node (.node Tree.nil 14112 (1358) Tree.nil) 14118 (1353) Tree.nil) 14120 (1354)
  (.node Tree.nil 14124 (1367) Tree.nil)) 14125 (1358) (.node (.node (.node Tree.nil 14133 (19) Tree.nil) 14137 (1356) Tree.nil) 14139 (19) (.node
  Tree.nil 14146 (1358) Tree.nil))) 14151 (1355) (.node (.node (.node (.node Tree.nil 14153 (1358) Tree.nil) 14161 (1358) Tree.nil) 14166 (1355)
  (.node Tree.nil 14168 (1358) Tree.nil)) 14176 (19) (.node (.node Tree.nil 14181 (1357) Tree.nil) 14184 (1368) (.node Tree.nil 14185 (23)
  Tree.nil)))) 14190 (1368) (.node (.node (.node (.node (.node Tree.nil 14191 (1364) Tree.nil) 14194 (1370) Tree.nil) 14196 (1369) (.node Tree.nil
  14200 (1355) Tree.nil)) 14205 (23) (.node (.node (.node Tree.nil 14211 (19) Tree.nil) 14216 (1357) Tree.nil) 14220 (1371) (.node Tree.nil 14223
  (1358) Tree.nil))) 14225 (1372) (.node (.node (.node (.node Tree.nil 14228 (23) Tree.nil) 14229 (23) Tree.nil) 14232 (1355) (.node Tree.nil 14242
  (19) Tree.nil)) 14247 (1356) (.node (.node Tree.nil 14251 (1375) Tree.nil) 14254 (1358) (.node Tree.nil 14256 (1376) Tree.nil))))) 14259 (1364)
  (.node (.node (.node (.node (.node (.node Tree.nil 14260 (1377) Tree.nil) 14263 (23) Tree.nil) 14264 (23) (.node Tree.nil 14267 (1355) Tree.nil))
  14293 (1353) (.node (.node (.node Tree.nil 14298 (19) Tree.nil) 14302 (1358) Tree.nil) 14311 (19) (.node Tree.nil 14315 (1358) Tree.nil))) 14329
  (1358) (.node (.node (.node (.node Tree.nil 14338 (19) Tree.nil) 14343 (1344) Tree.nil) 14349 (1358) (.node Tree.nil 14356 (23) Tree.nil)) 14362
  (16) (.node (.node Tree.nil 14369 (1358) Tree.nil) 14375 (16) (.node Tree.nil 14379 (1380) Tree.nil)))) 14380 (105) (.node (.node (.node (.node
  (.node Tree.nil 14386 (1358) Tree.nil) 14392 (16) Tree.nil) 14396 (1381) (.node Tree.nil 14397 (105) Tree.nil)) 14403 (1358) (.node (.node
  Tree.nil 14409 (16) Tree.nil) 14410 (16) (.node Tree.nil 14415 (23) Tree.nil))) 14420 (1358) (.node (.node (.node (.node Tree.nil 14426 (19)
  Tree.nil) 14430 (23) Tree.nil) 14435 (1358) (.node Tree.nil 14441 (16) Tree.nil)) 14445 (1384) (.node (.node Tree.nil 14446 (1360) Tree.nil) 14453
  (19) (.node Tree.nil 14457 (16) Tree.nil))))))
/-- `Info.Selections`. -/
def selectionTable : Tree (GoType × Nat) := (.node (.node (.node Tree.nil 14121 ((.named 1353, 1354)) Tree.nil) 14381 ((.pointer (.named 1358),
  105)) Tree.nil) 14398 ((.pointer (.named 1358), 105)) (.node Tree.nil 14447 ((.pointer (.named 1358), 1360)) Tree.nil))
/-- Identifiers that are names of imported packages. -/
def pkgNameTable : Tree GoString := (.node Tree.nil 14342 (s19) Tree.nil)
/-- Method sets. -/
def methodSetTable : Tree (List (GoString × Nat)) := (.node (.node (.node Tree.nil 27 ([(s15, 1386)]) Tree.nil) 95 ([(s15, 20)]) (.node Tree.nil 707
  ([(s21, 1431), (s15, 1430)]) Tree.nil)) 6765 ([(s2, 1354)]) (.node (.node Tree.nil 6766 ([(s2, 1354)]) Tree.nil) 6791 ([(s26, 1362), (s21, 1359),
  (s25, 1361), (s15, 1363), (s24, 1360)]) (.node Tree.nil 6820 ([(s21, 1366), (s15, 20)]) Tree.nil)))
/-- Types implementing `error`. -/
def implErrorTable : Tree Unit := (.node (.node (.node Tree.nil 27 (()) Tree.nil) 95 (()) Tree.nil) 707 (()) (.node (.node Tree.nil 6791 (())
  Tree.nil) 6820 (()) Tree.nil))
/-- Types implementing `error` with a code. -/
def implCodeTable : Tree Unit := (.node (.node Tree.nil 707 (()) Tree.nil) 6791 (()) (.node Tree.nil 6820 (()) Tree.nil))
/-- Types implementing `error` with a cause. -/
def implCauseTable : Tree Unit := (.node Tree.nil 6791 (()) Tree.nil)
/-- Signatures: types of parameters, variadic, number of results. -/
def sigTable : Tree (List GoType × Bool × Nat) := (.node (.node (.node Tree.nil 6 (([], false, 1)) Tree.nil) 11 (([], false, 1)) (.node Tree.nil 23
  (([], false, 1)) Tree.nil)) 142 (([], false, 1)) (.node (.node Tree.nil 143 (([], false, 1)) Tree.nil) 146 (([], false, 1)) Tree.nil))
/-- Tuples of results. -/
def tupleTable : Tree (List GoType) := (.node Tree.nil 144 ([.named 1364, .other 10]) Tree.nil)
/-- Fields of structs. -/
def structTable : Tree (List (GoString × GoType)) := (.node (.node Tree.nil 1 ([(s23, .string)]) Tree.nil) 2 ([]) Tree.nil)
/-- Underlying types of named types. -/
def underlyingTable : Tree GoType := (.node (.node (.node Tree.nil 19 (.interface 5) Tree.nil) 1353 (.struct 2) Tree.nil) 1358 (.struct 1) (.node
  Tree.nil 1364 (.interface 141) Tree.nil))
/-- Which types implement which interfaces. -/
def implTable : Tree (Tree Unit) := (.node (.node Tree.nil 5 ((.node (.node (.node Tree.nil 27 (()) Tree.nil) 95 (()) Tree.nil) 707 (()) (.node
  (.node Tree.nil 6791 (()) Tree.nil) 6820 (()) Tree.nil))) Tree.nil) 141 ((.node (.node Tree.nil 707 (()) Tree.nil) 6791 (()) (.node Tree.nil 6820
  (()) Tree.nil))) Tree.nil)
/-- Comments at return statements (`ast.NewCommentMap`). -/
def commentTable : Tree (List (List GoString)) := (.node (.node (.node Tree.nil 14141 ([[s31]]) Tree.nil) 14156 ([[s32]]) Tree.nil) 14171 ([[s33]])
  (.node (.node Tree.nil 14306 ([[s34]]) Tree.nil) 14319 ([[s35]]) Tree.nil))
/-- Function declarations. -/
def declTable : Tree DeclInfo := (.node (.node (.node (.node (.node Tree.nil 0 (⟨s0, true, none, some (CommentText.text [s36, s37, s38]), 14130,
  1346, []⟩) Tree.nil) 1 (⟨s3, true, none, some (CommentText.text [s36, s37, s39]), 14143, 1347, []⟩) Tree.nil) 2 (⟨s5, true, none, some
  (CommentText.text [s36, s37, s40]), 14158, 1348, []⟩) (.node Tree.nil 3 (⟨s7, true, none, none, 14173, 1349, []⟩) Tree.nil)) 4 (⟨s8, true, none,
  some (CommentText.text [s36, s37, s41, s42]), 14208, 1350, []⟩) (.node (.node Tree.nil 5 (⟨s13, true, none, some (CommentText.text [s36, s37, s41,
  s42]), 14239, 1351, []⟩) Tree.nil) 6 (⟨s16, true, none, some (CommentText.text [s36, s37, s43, s44]), 14274, 1352, []⟩) (.node Tree.nil 7 (⟨s2,
  true, some 14293, some (CommentText.text [s36, s37, s45]), 14308, 1354, []⟩) Tree.nil))) 8 (⟨s6, true, none, some (CommentText.text [s36, s37,
  s46]), 14321, 1355, []⟩) (.node (.node (.node Tree.nil 9 (⟨s4, true, none, some (CommentText.text [s47]), 14335, 1356, []⟩) Tree.nil) 10 (⟨s10,
  true, none, some (CommentText.text [s36, s37, s48]), 14359, 1357, []⟩) (.node Tree.nil 11 (⟨s21, true, some 14370, none, 14384, 1359, [⟨14368,
  s22, (some 21)⟩]⟩) Tree.nil)) 12 (⟨s24, true, some 14387, none, 14401, 1360, [⟨14385, s22, (some 22)⟩]⟩) (.node (.node Tree.nil 13 (⟨s25, true,
  some 14404, none, 14418, 1361, [⟨14402, s22, (some 23)⟩]⟩) Tree.nil) 14 (⟨s26, true, some 14421, none, 14433, 1362, [⟨14419, s22, (some 24)⟩]⟩)
  (.node Tree.nil 15 (⟨s15, true, some 14436, none, 14451, 1363, [⟨14434, s22, (some 25)⟩]⟩) Tree.nil))))
/-- Named interfaces. -/
def interfaceTable : Tree Unit := (.node (.node Tree.nil 19 (()) Tree.nil) 1364 (()) Tree.nil)
/-- Methods of named types. -/
def methodNameTable : Tree (List GoString) := (.node (.node Tree.nil 1353 ([s2]) Tree.nil) 1358 ([s21, s24, s25, s26, s15]) Tree.nil)
/-- Objects of interface methods. -/
def methodObjTable : Tree Nat := (.node Tree.nil 14455 (1366) Tree.nil)
/-- Syntax and types of the package, and the facts exported by the packages it imports. -/
def env : Env where
  funcs := [f0, f1, f2, f3, f4, f5, f6, f7, f8, f9, f10, f11, f12, f13, f14, f15]
  objects := objects
  typeOf := fun n => (typeTable.find n).getD (.other 0)
  value := valueTable.find
  callee := calleeTable.find
  uses := usesTable.find
  selection := selectionTable.find
  pkgName := pkgNameTable.find
  funcObj := fun f => ((declTable.find f).map (·.obj)).getD 0
  implError := fun t => has implErrorTable t
  implCode := fun t => has implCodeTable t
  sigResults := fun n => ((sigTable.find n).map (·.2.2)).getD 0
  methodSet := fun t name => ((typeKey t).bind methodSetTable.find).bind fun l => lookup name l
  functions := fun _ => none
  methods := fun _ => []
  comments := fun n => ((commentTable.find n).getD []).map CommentText.text
  isPrint := fun r => 32 ≤ r && r < 127
  facts := noFacts
/-- The package. -/
def package : Package where
  env := env
  decls := ⟨fun f => ((declTable.find f).map (·.name)).getD [], fun f => ((declTable.find f).map (·.exported)).getD false,
    fun f => (declTable.find f).bind (·.recv), fun f => (declTable.find f).bind (·.doc), fun t => has implCauseTable t,
    fun f => ((declTable.find f).map (·.pos)).getD 0⟩
  types := ⟨fun f => (((declTable.find f).bind (·.recv)).bind typeTable.find).getD (.other 0),
    fun f => ((declTable.find f).map (·.recvNames)).getD [], fun o => (interfaceTable.find o).isSome,
    fun o => (methodNameTable.find o).getD []⟩
  funcs := [0, 1, 2, 3, 4, 5, 6, 7, 8, 9, 10, 11, 12, 13, 14, 15]
  specs := [⟨14292, .named 1353, some []⟩, ⟨14367, .named 1358, some [[s23]]⟩, ⟨14465, .named 1364, none⟩]
  ifaces := [⟨s18, 1364, .interface 141, [.embedded (.name 14453 s49), .method ⟨14461, ⟨14455, s21, (some 27)⟩, ⟨[], (some [⟨[], 14457⟩]), 3086⟩,
  none⟩]⟩]
  methodObj := fun n => (methodObjTable.find n).getD 0
  conv := ⟨fun o => (underlyingTable.find o).getD (.other 0), fun n => ((sigTable.find n).map (·.1)).getD [],
    fun n => ((sigTable.find n).map (·.2.1)).getD false, fun n => (tupleTable.find n).getD [], fun n => (structTable.find n).getD [],
    fun t n => n == 3 || ((implTable.find n).map fun tr => has tr t).getD false⟩
  top := [
    .func 0,
    .func 1,
    .func 2,
    .func 3,
    .func 4,
    .func 5,
    .func 6,
    .node (.other 14287 [.other 14286 [.basicLit 14285]]),
    .node (.other 14292 [.other 14291 [.ident ⟨14288, s50, (some 15)⟩, .other 14290 [.other 14289 []]]]),
    .func 7,
    .func 8,
    .func 9,
    .func 10,
    .node (.other 14367 [.other 14366 [.ident ⟨14360, s15, (some 16)⟩, .other 14365 [.other 14364 [.other 14363 [.ident ⟨14361, s23, (some 20)⟩,
  .ident ⟨14362, s51, none⟩]]]]]),
    .func 11,
    .func 12,
    .func 13,
    .func 14,
    .func 15,
    .node (.other 14465 [.other 14464 [.ident ⟨14452, s18, (some 26)⟩, .other 14463 [.other 14462 [.other 14454 [.ident ⟨14453, s49, none⟩], .other
  14461 [.ident ⟨14455, s21, (some 27)⟩, .other 14460 [.other 14456 [], .other 14459 [.other 14458 [.ident ⟨14457, s51, none⟩]]]]]]]])]
/-- The run, in one order. -/
def result : Except Stop Outcome := runVerify package Check.source true
/-- What is expected.  The comments in the package say (with facts as `object: fact`):
```
assert.go:6: TypeAssertionMethod: ErrorCodes: interface-error
assert.go:14: TypeAssertionInterface: ErrorCodes: empty-interface-error
assert.go:21: TypeAssertion: ErrorCodes: standard-error
assert.go:25: function "TypeAssertionNoCodes" is exported, but does not declare any error codes
assert.go:33: TypeAssertionMultipleTypes: ErrorCodes: maybe-error standard-error
assert.go:47: TypeAssertionSwitch: ErrorCodes: maybe-error standard-error
assert.go:63: TypeAssertionSwitchFromNonError: ErrorCodes: empty-interface-error standard-error
definitions.go:12: Method: ErrorCodes: interface-error
definitions.go:19: StandardError: ErrorCodes: standard-error
definitions.go:31: MaybeError: ErrorCodes: maybe-error
definitions.go:38: Error: ErrorType{Field:{Name:"TheCode", Position:0}, Codes:}
```
Besides, these are reported, as listed in `TestNotImplemented` (analyse_test.go:60-97):
```
assert.go:6: function "TypeAssertionMethod" has a mismatch of declared and actual error codes: unused codes: [interface-error]
assert.go:8: type assertion is not supported in error code analysis
assert.go:14: function "TypeAssertionInterface" has a mismatch of declared and actual error codes: unused codes: [empty-interface-error]
assert.go:15: type assertion is not supported in error code analysis
assert.go:21: function "TypeAssertion" has a mismatch of declared and actual error codes: unused codes: [standard-error]
assert.go:22: type assertion is not supported in error code analysis
assert.go:47: function "TypeAssertionSwitch" has a mismatch of declared and actual error codes: unused codes: [maybe-error]
assert.go:49: type assertion switch is not supported in error code analysis
assert.go:63: function "TypeAssertionSwitchFromNonError" has a mismatch of declared and actual error codes: unused codes: [empty-interface-error]
assert.go:65: type assertion switch is not supported in error code analysis
``` -/
def expected : Check.Expected where
  tags := []
  ifaces := []
  signatures := []
  claims := [{ at_ := 14173, msg := Serum.ClaimMsg.exportedUndeclared b!"TypeAssertionNoCodes" }]
  bodies := [(0, { at_ := 14127, msg := Serum.Msg.typeAssertUnsupported }),
    (1, { at_ := 14140, msg := Serum.Msg.typeAssertUnsupported }),
    (2, { at_ := 14155, msg := Serum.Msg.typeAssertUnsupported }),
    (5, { at_ := 14221, msg := Serum.Msg.typeSwitchUnsupported }),
    (6, { at_ := 14252, msg := Serum.Msg.typeSwitchUnsupported })]
  mismatches := [(0, b!"unused codes: [interface-error]"),
    (1, b!"unused codes: [empty-interface-error]"),
    (2, b!"unused codes: [standard-error]"),
    (5, b!"unused codes: [maybe-error]"),
    (6, b!"unused codes: [empty-interface-error]")]
  conversions := []
  codes := [(1346, [b!"interface-error"]),
    (1347, [b!"empty-interface-error"]),
    (1348, [b!"standard-error"]),
    (1350, [b!"maybe-error", b!"standard-error"]),
    (1351, [b!"maybe-error", b!"standard-error"]),
    (1352, [b!"empty-interface-error", b!"standard-error"]),
    (1354, [b!"interface-error"]),
    (1355, [b!"standard-error"]),
    (1357, [b!"maybe-error"])]
  ctors := []
  errorTypes := [(1358, { codes := [], field := some { name := b!"TheCode", position := 0 } })]
  interfaces := []
  objects := 1385

/-- What functions call, and which literals they visit. -/
def graph : Check.Graph :=
  [([], []), ([], []), ([], []), ([], []), ([10, 8], []), ([8], []), ([8], []), ([], []), ([], []), ([], []), ([], []), ([], []), ([], []),
  ([], []), ([], []), ([12], [])]

theorem checked : Check.run package true expected graph = true := by decide +kernel

theorem imports : Check.Tables package.env.facts := tables_noFacts

theorem exported : Check.Tables (Check.factsOf result) := Check.tables checked imports

/-- The facts known before a run: those exported by some run over the imported packages. -/
def Imported (F : Facts) : Prop :=
  F = noFacts

/-- The facts known after a run. -/
def Exports (F : Facts) : Prop := Check.Exports package Imported true F

theorem imports_same (F : Facts) (h : Imported F) : Props.Run.SameFacts package.env.facts F := by
  obtain rfl := h
  exact (.refl _)

theorem exports_same {F : Facts} (h : Exports F) : Props.Run.SameFacts (Check.factsOf result) F :=
  Check.exports_same checked imports imports_same h

/-- **C54**: every run over the package has the expected result. -/
theorem always : Check.Always package Imported true expected :=
  Check.always checked imports imports_same

/-- For the nodes with diagnostics: file, line, and type of node. -/
def nodes : Tree (GoString × Nat × GoString) :=
  (.node (.node (.node (.node Tree.nil 14127 ((b!"assert.go", 8, b!"TypeAssertExpr")) Tree.nil) 14130 ((b!"assert.go", 6, b!"FuncDecl")) Tree.nil) 14140 ((b!"assert.go", 15, b!"TypeAssertExpr")) (.node (.node Tree.nil 14143 ((b!"assert.go", 14, b!"FuncDecl")) Tree.nil) 14155 ((b!"assert.go", 22, b!"TypeAssertExpr")) Tree.nil)) 14158 ((b!"assert.go", 21, b!"FuncDecl")) (.node (.node (.node Tree.nil 14173 ((b!"assert.go", 25, b!"FuncDecl")) Tree.nil) 14221 ((b!"assert.go", 49, b!"TypeAssertExpr")) Tree.nil) 14239 ((b!"assert.go", 47, b!"FuncDecl")) (.node (.node Tree.nil 14252 ((b!"assert.go", 65, b!"TypeAssertExpr")) Tree.nil) 14274 ((b!"assert.go", 63, b!"FuncDecl")) Tree.nil)))

/-- The names of the objects named in diagnostics other than by identifiers. -/
def objectNames : Tree GoString :=
  Tree.nil

def names : Names where
  object := fun o => (objectNames.find o).getD []
  kind := fun n => ((nodes.find n).map fun p => p.2.2).getD []

def place (n : NodeId) : GoString × Nat := ((nodes.find n).map fun p => (p.1, p.2.1)).getD ([], 0)

/-- What is printed: file, line and text. -/
def lines : List Check.Line := [(b!"assert.go", 25, b!"function \"TypeAssertionNoCodes\" is exported, but does not declare any error codes"),
    (b!"assert.go", 8, b!"type assertion is not supported in error code analysis"),
    (b!"assert.go", 15, b!"type assertion is not supported in error code analysis"),
    (b!"assert.go", 22, b!"type assertion is not supported in error code analysis"),
    (b!"assert.go", 49, b!"type assertion switch is not supported in error code analysis"),
    (b!"assert.go", 65, b!"type assertion switch is not supported in error code analysis"),
    (b!"assert.go", 6, b!"function \"TypeAssertionMethod\" has a mismatch of declared and actual error codes: unused codes: [interface-error]"),
    (b!"assert.go", 14, b!"function \"TypeAssertionInterface\" has a mismatch of declared and actual error codes: unused codes: [empty-interface-error]"),
    (b!"assert.go", 21, b!"function \"TypeAssertion\" has a mismatch of declared and actual error codes: unused codes: [standard-error]"),
    (b!"assert.go", 47, b!"function \"TypeAssertionSwitch\" has a mismatch of declared and actual error codes: unused codes: [maybe-error]"),
    (b!"assert.go", 63, b!"function \"TypeAssertionSwitchFromNonError\" has a mismatch of declared and actual error codes: unused codes: [empty-interface-error]")]

/-- **C54**: for every run over the package, these lines are printed. -/
theorem prints : Check.Prints package Imported true names place lines :=
  Check.prints always (by decide +kernel)

end Serum.Testdata.typeAssertion
