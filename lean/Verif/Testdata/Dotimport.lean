import Verif.Testdata.Support
import Verif.Testdata.DotimportInner1
import Verif.Testdata.DotimportInner2

/-!
# C54: the package analysis/testdata/src/dotimport

Generated by `scripts/conformance/testdata.py` from dotimport.go.  Numbers of syntax nodes, objects and types are arbitrary.  The tables hold
what `go/parser` and `go/types` say about the package.
-/

set_option maxRecDepth 100000
set_option linter.all false

namespace Serum.Testdata.dotimport
open Serum Serum.Testdata

def s0 : GoString := b!"RunPackage1"
def s1 : GoString := b!"ExportedFunc1"
def s2 : GoString := b!"RunPackage2"
def s3 : GoString := b!"ExportedFunc2"
def s4 : GoString := b!"ReturnInner1Error"
def s5 : GoString := b!"ReturnInner2Error"
def s6 : GoString := b!"ReturnInner1UnusedError"
def s7 : GoString := b!"ReturnInner2UnusedError"
def s8 : GoString := b!"CallToUndeclared1"
def s9 : GoString := b!"true"
def s10 : GoString := b!"CodeNotDeclared1"
def s11 : GoString := b!"CallToUndeclared2"
def s12 : GoString := b!"CodeNotDeclared2"
def s13 : GoString := b!"CallToUndeclared3"
def s14 : GoString := b!"object"
def s15 : GoString := b!"CodeNotDeclared"
def s16 : GoString := b!"CallToUndeclared4"
def s17 : GoString := b!"Code"
def s18 : GoString := b!"e"
def s19 : GoString := b!"TheCode"
def s20 : GoString := b!"Message"
def s21 : GoString := b!"Details"
def s22 : GoString := b!"nil"
def s23 : GoString := b!"Cause"
def s24 : GoString := b!"Error"
def s25 : GoString := b!"inner1-error"
def s26 : GoString := b!"inner2-error"
def s27 : GoString := b!"inner1-unused-error"
def s28 : GoString := b!"inner2-unused-error"
def s29 : GoString := b!"x-error"
def s30 : GoString := b!"// want RunPackage1:\"ErrorCodes: hello-error\""
def s31 : GoString := b!"// want RunPackage2:\"ErrorCodes: hello-error\""
def s32 : GoString := b!"// want ReturnInner1Error:\"ErrorCodes: inner1-error\""
def s33 : GoString := b!"// want ReturnInner2Error:\"ErrorCodes: inner2-error\""
def s34 : GoString := b!"// want ReturnInner1UnusedError:\"ErrorCodes: inner1-unused-error\""
def s35 : GoString := b!"// want ReturnInner2UnusedError:\"ErrorCodes: inner2-unused-error\""
def s36 : GoString := b!"// want `function \"CodeNotDeclared1\" in dot-imported package does not declare error codes`"
def s37 : GoString := b!"// want `function \"CodeNotDeclared2\" in dot-imported package does not declare error codes`"
def s38 : GoString := b!"// want \"called function does not declare error codes\""
def s39 : GoString := b!"// RunPackage1 is a demo function."
def s40 : GoString := b!"//"
def s41 : GoString := b!"// Errors:"
def s42 : GoString := b!"//    - hello-error -- is always returned"
def s43 : GoString := b!"// RunPackage2 is a demo function"
def s44 : GoString := b!"// ReturnInner1Error returns an error from another package."
def s45 : GoString := b!"//    - inner1-error -- is always returned"
def s46 : GoString := b!"// ReturnInner2Error returns an error from another package."
def s47 : GoString := b!"//    - inner2-error -- is always returned"
def s48 : GoString := b!"// ReturnInner1UnusedError returns an error from another package,"
def s49 : GoString := b!"// which is not returned by any function in the inner package."
def s50 : GoString := b!"//    - inner1-unused-error -- is always returned"
def s51 : GoString := b!"// ReturnInner2UnusedError returns an error from another package,"
def s52 : GoString := b!"//    - inner2-unused-error -- is always returned"
def s53 : GoString := b!"//    - x-error --"
def s54 : GoString := b!"."
def s55 : GoString := b!"string"
/-- dotimport.go:13: `func RunPackage1` -/
def f0 : FuncDef := ⟨2243, some ⟨2233, s0, (some 0)⟩, ⟨[], (some [⟨[], 2235⟩]), 188⟩, some [.ret 2241 [.call 2240 (.ident ⟨2239, s1, none⟩) []]],
  194, 267⟩
/-- dotimport.go:22: `func RunPackage2` -/
def f1 : FuncDef := ⟨2254, some ⟨2244, s2, (some 1)⟩, ⟨[], (some [⟨[], 2246⟩]), 381⟩, some [.ret 2252 [.call 2251 (.ident ⟨2250, s3, none⟩) []]],
  387, 460⟩
/-- dotimport.go:31: `func ReturnInner1Error` -/
def f2 : FuncDef := ⟨2267, some ⟨2255, s4, (some 2)⟩, ⟨[], (some [⟨[], 2257⟩]), 607⟩, some [.ret 2265 [.unary 2264 true (.compositeLit 2263
  [.basicLit 2262])]], 613, 706⟩
/-- dotimport.go:40: `func ReturnInner2Error` -/
def f3 : FuncDef := ⟨2280, some ⟨2268, s5, (some 3)⟩, ⟨[], (some [⟨[], 2270⟩]), 853⟩, some [.ret 2278 [.unary 2277 true (.compositeLit 2276
  [.basicLit 2275])]], 859, 952⟩
/-- dotimport.go:50: `func ReturnInner1UnusedError` -/
def f4 : FuncDef := ⟨2293, some ⟨2281, s6, (some 4)⟩, ⟨[], (some [⟨[], 2283⟩]), 1181⟩, some [.ret 2291 [.unary 2290 true (.compositeLit 2289
  [.basicLit 2288])]], 1187, 1306⟩
/-- dotimport.go:60: `func ReturnInner2UnusedError` -/
def f5 : FuncDef := ⟨2306, some ⟨2294, s7, (some 5)⟩, ⟨[], (some [⟨[], 2296⟩]), 1535⟩, some [.ret 2304 [.unary 2303 true (.compositeLit 2302
  [.basicLit 2301])]], 1541, 1660⟩
/-- dotimport.go:67: `func CallToUndeclared1` -/
def f6 : FuncDef := ⟨2326, some ⟨2307, s8, (some 6)⟩, ⟨[], (some [⟨[], 2309⟩]), 1720⟩, some [.other 2319 [.ident ⟨2313, s9, none⟩, .other 2318 [.ret
  2317 [.call 2316 (.ident ⟨2315, s10, none⟩) []]]], .ret 2324 [.unary 2323 true (.compositeLit 2322 [.basicLit 2321])]], 1726, 1936⟩
/-- dotimport.go:77: `func CallToUndeclared2` -/
def f7 : FuncDef := ⟨2346, some ⟨2327, s11, (some 8)⟩, ⟨[], (some [⟨[], 2329⟩]), 1996⟩, some [.other 2339 [.ident ⟨2333, s9, none⟩, .other 2338
  [.ret 2337 [.call 2336 (.ident ⟨2335, s12, none⟩) []]]], .ret 2344 [.unary 2343 true (.compositeLit 2342 [.basicLit 2341])]], 2002, 2212⟩
/-- dotimport.go:87: `func CallToUndeclared3` -/
def f8 : FuncDef := ⟨2372, some ⟨2347, s13, (some 9)⟩, ⟨[], (some [⟨[], 2349⟩]), 2272⟩, some [.other 2365 [.ident ⟨2353, s9, none⟩, .other 2364
  [.assign 2358 [.ident ⟨2355, s14, (some 10)⟩] [.compositeLit 2357 []], .ret 2363 [.call 2362 (.selector 2361 (.ident ⟨2359, s14, (some 10)⟩)
  ⟨2360, s15, none⟩) []]]], .ret 2370 [.unary 2369 true (.compositeLit 2368 [.basicLit 2367])]], 2278, 2482⟩
/-- dotimport.go:98: `func CallToUndeclared4` -/
def f9 : FuncDef := ⟨2398, some ⟨2373, s16, (some 11)⟩, ⟨[], (some [⟨[], 2375⟩]), 2542⟩, some [.other 2391 [.ident ⟨2379, s9, none⟩, .other 2390
  [.assign 2384 [.ident ⟨2381, s14, (some 12)⟩] [.compositeLit 2383 []], .ret 2389 [.call 2388 (.selector 2387 (.ident ⟨2385, s14, (some 12)⟩)
  ⟨2386, s15, none⟩) []]]], .ret 2396 [.unary 2395 true (.compositeLit 2394 [.basicLit 2393])]], 2548, 2752⟩
/-- dotimport.go:110: `func Code` -/
def f10 : FuncDef := ⟨2423, some ⟨2412, s17, none⟩, ⟨[], (some [⟨[], 2414⟩]), 2886⟩, some [.ret 2421 [.selector 2420 (.ident ⟨2418, s18, (some 14)⟩)
  ⟨2419, s19, none⟩]], 2907, 2927⟩
/-- dotimport.go:111: `func Message` -/
def f11 : FuncDef := ⟨2440, some ⟨2429, s20, none⟩, ⟨[], (some [⟨[], 2431⟩]), 2954⟩, some [.ret 2438 [.selector 2437 (.ident ⟨2435, s18, (some 15)⟩)
  ⟨2436, s19, none⟩]], 2972, 2992⟩
/-- dotimport.go:112: `func Details` -/
def f12 : FuncDef := ⟨2457, some ⟨2446, s21, none⟩, ⟨[], (some [⟨[], 2450⟩]), 3019⟩, some [.ret 2455 [.ident ⟨2454, s22, none⟩]], 3037, 3051⟩
/-- dotimport.go:113: `func Cause` -/
def f13 : FuncDef := ⟨2472, some ⟨2463, s23, none⟩, ⟨[], (some [⟨[], 2465⟩]), 3076⟩, some [.ret 2470 [.ident ⟨2469, s22, none⟩]], 3096, 3110⟩
/-- dotimport.go:114: `func Error` -/
def f14 : FuncDef := ⟨2490, some ⟨2478, s24, none⟩, ⟨[], (some [⟨[], 2480⟩]), 3135⟩, some [.ret 2488 [.call 2487 (.selector 2486 (.ident ⟨2484, s18,
  (some 18)⟩) ⟨2485, s20, none⟩) []]], 3155, 3177⟩
/-- The objects of go/ast, in the order of their numbers. -/
def objects : List ObjInfo := [
  ⟨.fun_, 174, (.funcDecl 0)⟩,
  ⟨.fun_, 367, (.funcDecl 1)⟩,
  ⟨.fun_, 587, (.funcDecl 2)⟩,
  ⟨.fun_, 833, (.funcDecl 3)⟩,
  ⟨.fun_, 1155, (.funcDecl 4)⟩,
  ⟨.fun_, 1509, (.funcDecl 5)⟩,
  ⟨.fun_, 1700, (.funcDecl 6)⟩,
  ⟨.typ, 2759, .typeSpec⟩,
  ⟨.fun_, 1976, (.funcDecl 7)⟩,
  ⟨.fun_, 2252, (.funcDecl 8)⟩,
  ⟨.var, 2341, .other⟩,
  ⟨.fun_, 2522, (.funcDecl 9)⟩,
  ⟨.var, 2611, .other⟩,
  ⟨.var, 2845, .other⟩,
  ⟨.var, 2869, .other⟩,
  ⟨.var, 2934, .other⟩,
  ⟨.var, 2999, .other⟩,
  ⟨.var, 3058, .other⟩,
  ⟨.var, 3117, .other⟩]
/-- Types of expressions (`Info.Types`, `Info.Defs`, `Info.Uses`). -/
def typeTable : Tree GoType := (.node (.node (.node (.node (.node (.node (.node (.node Tree.nil 2233 (.signature 6) Tree.nil) 2235 (.named 19)
  Tree.nil) 2238 (.signature 6) (.node Tree.nil 2239 (.signature 6) Tree.nil)) 2240 (.named 19) (.node (.node Tree.nil 2244 (.signature 6) Tree.nil)
  2246 (.named 19) (.node Tree.nil 2249 (.signature 6) Tree.nil))) 2250 (.signature 6) (.node (.node (.node (.node Tree.nil 2251 (.named 19)
  Tree.nil) 2255 (.signature 6) Tree.nil) 2257 (.named 19) (.node Tree.nil 2260 (.signature 6) Tree.nil)) 2261 (.named 220) (.node (.node Tree.nil
  2262 (.string) Tree.nil) 2263 (.named 220) (.node Tree.nil 2264 (.pointer (.named 220)) Tree.nil)))) 2268 (.signature 6) (.node (.node (.node
  (.node (.node Tree.nil 2270 (.named 19) Tree.nil) 2273 (.signature 6) Tree.nil) 2274 (.named 242) (.node Tree.nil 2275 (.string) Tree.nil)) 2276
  (.named 242) (.node (.node Tree.nil 2277 (.pointer (.named 242)) Tree.nil) 2281 (.signature 6) (.node Tree.nil 2283 (.named 19) Tree.nil))) 2286
  (.signature 6) (.node (.node (.node Tree.nil 2287 (.named 226) Tree.nil) 2288 (.string) (.node Tree.nil 2289 (.named 226) Tree.nil)) 2290
  (.pointer (.named 226)) (.node (.node Tree.nil 2294 (.signature 6) Tree.nil) 2296 (.named 19) (.node Tree.nil 2299 (.signature 6) Tree.nil)))))
  2300 (.named 248) (.node (.node (.node (.node (.node (.node Tree.nil 2301 (.string) Tree.nil) 2302 (.named 248) Tree.nil) 2303 (.pointer (.named
  248)) (.node Tree.nil 2307 (.signature 6) Tree.nil)) 2309 (.named 19) (.node (.node Tree.nil 2312 (.signature 6) Tree.nil) 2313 (.other 10) (.node
  Tree.nil 2315 (.signature 6) Tree.nil))) 2316 (.named 19) (.node (.node (.node Tree.nil 2320 (.named 270) Tree.nil) 2321 (.string) (.node Tree.nil
  2322 (.named 270) Tree.nil)) 2323 (.pointer (.named 270)) (.node (.node Tree.nil 2327 (.signature 6) Tree.nil) 2329 (.named 19) (.node Tree.nil
  2332 (.signature 6) Tree.nil)))) 2333 (.other 10) (.node (.node (.node (.node (.node Tree.nil 2335 (.signature 6) Tree.nil) 2336 (.named 19)
  Tree.nil) 2340 (.named 270) (.node Tree.nil 2341 (.string) Tree.nil)) 2342 (.named 270) (.node (.node Tree.nil 2343 (.pointer (.named 270))
  Tree.nil) 2347 (.signature 6) (.node Tree.nil 2349 (.named 19) Tree.nil))) 2352 (.signature 6) (.node (.node (.node Tree.nil 2353 (.other 10)
  Tree.nil) 2355 (.named 218) (.node Tree.nil 2356 (.named 218) Tree.nil)) 2357 (.named 218) (.node (.node Tree.nil 2359 (.named 218) Tree.nil) 2360
  (.signature 6) (.node Tree.nil 2361 (.signature 6) Tree.nil)))))) 2362 (.named 19) (.node (.node (.node (.node (.node (.node (.node Tree.nil 2366
  (.named 270) Tree.nil) 2367 (.string) Tree.nil) 2368 (.named 270) (.node Tree.nil 2369 (.pointer (.named 270)) Tree.nil)) 2373 (.signature 6)
  (.node (.node Tree.nil 2375 (.named 19) Tree.nil) 2378 (.signature 6) (.node Tree.nil 2379 (.other 10) Tree.nil))) 2381 (.named 240) (.node (.node
  (.node Tree.nil 2382 (.named 240) Tree.nil) 2383 (.named 240) (.node Tree.nil 2385 (.named 240) Tree.nil)) 2386 (.signature 6) (.node (.node
  Tree.nil 2387 (.signature 6) Tree.nil) 2388 (.named 19) (.node Tree.nil 2392 (.named 270) Tree.nil)))) 2393 (.string) (.node (.node (.node (.node
  (.node Tree.nil 2394 (.named 270) Tree.nil) 2395 (.pointer (.named 270)) Tree.nil) 2399 (.named 270) (.node Tree.nil 2400 (.string) Tree.nil))
  2401 (.string) (.node (.node Tree.nil 2404 (.struct 1) Tree.nil) 2407 (.pointer (.named 270)) (.node Tree.nil 2408 (.named 270) Tree.nil))) 2409
  (.pointer (.named 270)) (.node (.node (.node Tree.nil 2412 (.signature 11) Tree.nil) 2414 (.string) (.node Tree.nil 2417 (.signature 11)
  Tree.nil)) 2418 (.pointer (.named 270)) (.node (.node Tree.nil 2419 (.string) Tree.nil) 2420 (.string) (.node Tree.nil 2424 (.pointer (.named
  270)) Tree.nil))))) 2425 (.named 270) (.node (.node (.node (.node (.node (.node Tree.nil 2426 (.pointer (.named 270)) Tree.nil) 2429 (.signature
  11) Tree.nil) 2431 (.string) (.node Tree.nil 2434 (.signature 11) Tree.nil)) 2435 (.pointer (.named 270)) (.node (.node Tree.nil 2436 (.string)
  Tree.nil) 2437 (.string) (.node Tree.nil 2441 (.pointer (.named 270)) Tree.nil))) 2442 (.named 270) (.node (.node (.node Tree.nil 2443 (.pointer
  (.named 270)) Tree.nil) 2446 (.signature 23) (.node Tree.nil 2448 (.string) Tree.nil)) 2449 (.string) (.node (.node Tree.nil 2450 (.map (.string)
  (.string)) Tree.nil) 2453 (.signature 23) (.node Tree.nil 2454 (.untypedNil) Tree.nil)))) 2458 (.pointer (.named 270)) (.node (.node (.node (.node
  (.node Tree.nil 2459 (.named 270) Tree.nil) 2460 (.pointer (.named 270)) Tree.nil) 2463 (.signature 6) (.node Tree.nil 2465 (.named 19) Tree.nil))
  2468 (.signature 6) (.node (.node Tree.nil 2469 (.untypedNil) Tree.nil) 2473 (.pointer (.named 270)) (.node Tree.nil 2474 (.named 270) Tree.nil)))
  2475 (.pointer (.named 270)) (.node (.node (.node Tree.nil 2478 (.signature 11) Tree.nil) 2480 (.string) (.node Tree.nil 2483 (.signature 11)
  Tree.nil)) 2484 (.pointer (.named 270)) (.node (.node Tree.nil 2485 (.signature 11) Tree.nil) 2486 (.signature 11) (.node Tree.nil 2487 (.string)
  Tree.nil)))))))
/-- Constant values of expressions. -/
def valueTable : Tree Const := (.node (.node (.node (.node Tree.nil 2262 (.str s25) Tree.nil) 2275 (.str s26) (.node Tree.nil 2288 (.str s27)
  Tree.nil)) 2301 (.str s28) (.node (.node Tree.nil 2313 (.other) Tree.nil) 2321 (.str s29) Tree.nil)) 2333 (.other) (.node (.node (.node Tree.nil
  2341 (.str s29) Tree.nil) 2353 (.other) Tree.nil) 2367 (.str s29) (.node (.node Tree.nil 2379 (.other) Tree.nil) 2393 (.str s29) Tree.nil)))
/-- `typeutil.Callee` of call expressions. -/
def calleeTable : Tree Nat := (.node (.node (.node Tree.nil 2240 (216) Tree.nil) 2251 (238) (.node Tree.nil 2316 (217) Tree.nil)) 2336 (239) (.node
  (.node Tree.nil 2362 (219) Tree.nil) 2388 (241) (.node Tree.nil 2487 (272) Tree.nil)))
/-- `Info.Uses`. -/
def usesTable : Tree Nat := (.node (.node (.node (.node (.node (.node Tree.nil 2235 (19) Tree.nil) 2239 (216) (.node Tree.nil 2246 (19) Tree.nil))
  2250 (238) (.node (.node Tree.nil 2257 (19) Tree.nil) 2261 (220) Tree.nil)) 2270 (19) (.node (.node (.node Tree.nil 2274 (242) Tree.nil) 2283 (19)
  (.node Tree.nil 2287 (226) Tree.nil)) 2296 (19) (.node (.node Tree.nil 2300 (248) Tree.nil) 2309 (19) Tree.nil))) 2313 (21) (.node (.node (.node
  (.node Tree.nil 2315 (217) Tree.nil) 2320 (270) (.node Tree.nil 2329 (19) Tree.nil)) 2333 (21) (.node (.node Tree.nil 2335 (239) Tree.nil) 2340
  (270) Tree.nil)) 2349 (19) (.node (.node (.node Tree.nil 2353 (21) Tree.nil) 2356 (218) Tree.nil) 2359 (277) (.node (.node Tree.nil 2360 (219)
  Tree.nil) 2366 (270) Tree.nil)))) 2375 (19) (.node (.node (.node (.node (.node Tree.nil 2379 (21) Tree.nil) 2382 (240) (.node Tree.nil 2385 (278)
  Tree.nil)) 2386 (241) (.node (.node Tree.nil 2392 (270) Tree.nil) 2401 (16) Tree.nil)) 2408 (270) (.node (.node (.node Tree.nil 2414 (16)
  Tree.nil) 2418 (279) Tree.nil) 2419 (105) (.node (.node Tree.nil 2425 (270) Tree.nil) 2431 (16) Tree.nil))) 2435 (280) (.node (.node (.node (.node
  Tree.nil 2436 (105) Tree.nil) 2442 (270) (.node Tree.nil 2448 (16) Tree.nil)) 2449 (16) (.node (.node Tree.nil 2454 (23) Tree.nil) 2459 (270)
  Tree.nil)) 2465 (19) (.node (.node (.node Tree.nil 2469 (23) Tree.nil) 2474 (270) Tree.nil) 2480 (16) (.node (.node Tree.nil 2484 (283) Tree.nil)
  2485 (272) Tree.nil)))))
/-- `Info.Selections`. -/
def selectionTable : Tree (GoType × Nat) := (.node (.node (.node Tree.nil 2361 ((.named 218, 219)) Tree.nil) 2387 ((.named 240, 241)) Tree.nil) 2420
  ((.pointer (.named 270), 105)) (.node (.node Tree.nil 2437 ((.pointer (.named 270), 105)) Tree.nil) 2486 ((.pointer (.named 270), 272)) Tree.nil))
/-- Identifiers that are names of imported packages. -/
def pkgNameTable : Tree GoString := Tree.nil
/-- Method sets. -/
def methodSetTable : Tree (List (GoString × Nat)) := (.node (.node (.node (.node Tree.nil 27 ([(s24, 1386)]) Tree.nil) 95 ([(s24, 20)]) Tree.nil)
  1090 ([(s15, 219)]) (.node (.node Tree.nil 1091 ([(s15, 219)]) Tree.nil) 1101 ([(s23, 224), (s17, 221), (s21, 223), (s24, 225), (s20, 222)])
  Tree.nil)) 1131 ([(s17, 227), (s24, 228)]) (.node (.node (.node Tree.nil 1200 ([(s15, 241)]) Tree.nil) 1201 ([(s15, 241)]) Tree.nil) 1211 ([(s23,
  246), (s17, 243), (s21, 245), (s24, 247), (s20, 244)]) (.node (.node Tree.nil 1241 ([(s17, 249), (s24, 250)]) Tree.nil) 1351 ([(s23, 274), (s17,
  271), (s21, 273), (s24, 275), (s20, 272)]) Tree.nil)))
/-- Types implementing `error`. -/
def implErrorTable : Tree Unit := (.node (.node (.node Tree.nil 27 (()) Tree.nil) 95 (()) (.node Tree.nil 1101 (()) Tree.nil)) 1131 (()) (.node
  (.node Tree.nil 1211 (()) Tree.nil) 1241 (()) (.node Tree.nil 1351 (()) Tree.nil)))
/-- Types implementing `error` with a code. -/
def implCodeTable : Tree Unit := (.node (.node (.node Tree.nil 1101 (()) Tree.nil) 1131 (()) Tree.nil) 1211 (()) (.node (.node Tree.nil 1241 (())
  Tree.nil) 1351 (()) Tree.nil))
/-- Types implementing `error` with a cause. -/
def implCauseTable : Tree Unit := (.node (.node Tree.nil 1101 (()) Tree.nil) 1211 (()) (.node Tree.nil 1351 (()) Tree.nil))
/-- Signatures: types of parameters, variadic, number of results. -/
def sigTable : Tree (List GoType × Bool × Nat) := (.node (.node Tree.nil 6 (([], false, 1)) Tree.nil) 11 (([], false, 1)) (.node Tree.nil 23 (([],
  false, 1)) Tree.nil))
/-- Tuples of results. -/
def tupleTable : Tree (List GoType) := Tree.nil
/-- Fields of structs. -/
def structTable : Tree (List (GoString × GoType)) := (.node (.node Tree.nil 1 ([(s19, .string)]) Tree.nil) 2 ([]) Tree.nil)
/-- Underlying types of named types. -/
def underlyingTable : Tree GoType := (.node (.node (.node (.node Tree.nil 19 (.interface 5) Tree.nil) 218 (.struct 2) Tree.nil) 220 (.struct 1)
  (.node Tree.nil 226 (.struct 1) Tree.nil)) 240 (.struct 2) (.node (.node Tree.nil 242 (.struct 1) Tree.nil) 248 (.struct 1) (.node Tree.nil 270
  (.struct 1) Tree.nil)))
/-- Which types implement which interfaces. -/
def implTable : Tree (Tree Unit) := (.node Tree.nil 5 ((.node (.node (.node Tree.nil 27 (()) Tree.nil) 95 (()) (.node Tree.nil 1101 (()) Tree.nil))
  1131 (()) (.node (.node Tree.nil 1211 (()) Tree.nil) 1241 (()) (.node Tree.nil 1351 (()) Tree.nil)))) Tree.nil)
/-- Comments at return statements (`ast.NewCommentMap`). -/
def commentTable : Tree (List (List GoString)) := (.node (.node (.node (.node Tree.nil 2241 ([[s30]]) Tree.nil) 2252 ([[s31]]) Tree.nil) 2265
  ([[s32]]) (.node (.node Tree.nil 2278 ([[s33]]) Tree.nil) 2291 ([[s34]]) Tree.nil)) 2304 ([[s35]]) (.node (.node (.node Tree.nil 2317 ([[s36]])
  Tree.nil) 2337 ([[s37]]) Tree.nil) 2363 ([[s38]]) (.node Tree.nil 2389 ([[s38]]) Tree.nil)))
/-- Function declarations. -/
def declTable : Tree DeclInfo := (.node (.node (.node (.node Tree.nil 0 (⟨s0, true, none, some (CommentText.text [s39, s40, s41, s40, s42]), 2243,
  260, []⟩) Tree.nil) 1 (⟨s2, true, none, some (CommentText.text [s43, s40, s41, s40, s42]), 2254, 261, []⟩) (.node Tree.nil 2 (⟨s4, true, none,
  some (CommentText.text [s44, s40, s41, s40, s45]), 2267, 262, []⟩) Tree.nil)) 3 (⟨s5, true, none, some (CommentText.text [s46, s40, s41, s40,
  s47]), 2280, 263, []⟩) (.node (.node Tree.nil 4 (⟨s6, true, none, some (CommentText.text [s48, s49, s40, s41, s40, s50]), 2293, 264, []⟩)
  Tree.nil) 5 (⟨s7, true, none, some (CommentText.text [s51, s49, s40, s41, s40, s52]), 2306, 265, []⟩) (.node Tree.nil 6 (⟨s8, true, none, some
  (CommentText.text [s41, s40, s53]), 2326, 266, []⟩) Tree.nil))) 7 (⟨s11, true, none, some (CommentText.text [s41, s40, s53]), 2346, 267, []⟩)
  (.node (.node (.node Tree.nil 8 (⟨s13, true, none, some (CommentText.text [s41, s40, s53]), 2372, 268, []⟩) Tree.nil) 9 (⟨s16, true, none, some
  (CommentText.text [s41, s40, s53]), 2398, 269, []⟩) (.node Tree.nil 10 (⟨s17, true, some 2409, none, 2423, 271, [⟨2407, s18, (some 14)⟩]⟩)
  Tree.nil)) 11 (⟨s20, true, some 2426, none, 2440, 272, [⟨2424, s18, (some 15)⟩]⟩) (.node (.node Tree.nil 12 (⟨s21, true, some 2443, none, 2457,
  273, [⟨2441, s18, (some 16)⟩]⟩) Tree.nil) 13 (⟨s23, true, some 2460, none, 2472, 274, [⟨2458, s18, (some 17)⟩]⟩) (.node Tree.nil 14 (⟨s24, true,
  some 2475, none, 2490, 275, [⟨2473, s18, (some 18)⟩]⟩) Tree.nil))))
/-- Named interfaces. -/
def interfaceTable : Tree Unit := (.node Tree.nil 19 (()) Tree.nil)
/-- Methods of named types. -/
def methodNameTable : Tree (List GoString) := (.node (.node (.node Tree.nil 218 ([s15]) Tree.nil) 220 ([s17, s20, s21, s23, s24]) (.node Tree.nil
  226 ([s17, s24]) Tree.nil)) 240 ([s15]) (.node (.node Tree.nil 242 ([s17, s20, s21, s23, s24]) Tree.nil) 248 ([s17, s24]) (.node Tree.nil 270
  ([s17, s20, s21, s23, s24]) Tree.nil)))
/-- Objects of interface methods. -/
def methodObjTable : Tree Nat := Tree.nil
/-- Syntax and types of the package, and the facts exported by the packages it imports. -/
def env : Env where
  funcs := [f0, f1, f2, f3, f4, f5, f6, f7, f8, f9, f10, f11, f12, f13, f14]
  objects := objects
  typeOf := fun n => (typeTable.find n).getD (.other 0)
  value := valueTable.find
  callee := calleeTable.find
  uses := usesTable.find
  selection := selectionTable.find
  pkgName := pkgNameTable.find
  funcObj := fun f => ((declTable.find f).map (·.obj)).getD 0
  implError := fun t => has implErrorTable t
  implCode := fun t => has implCodeTable t
  sigResults := fun n => ((sigTable.find n).map (·.2.2)).getD 0
  methodSet := fun t name => ((typeKey t).bind methodSetTable.find).bind fun l => lookup name l
  functions := fun _ => none
  methods := fun _ => []
  comments := fun n => ((commentTable.find n).getD []).map CommentText.text
  isPrint := fun r => 32 ≤ r && r < 127
  facts := merge (merge (noFacts) (Check.factsOf dotimportInner1.result)) (Check.factsOf dotimportInner2.result)
/-- The package. -/
def package : Package where
  env := env
  decls := ⟨fun f => ((declTable.find f).map (·.name)).getD [], fun f => ((declTable.find f).map (·.exported)).getD false,
    fun f => (declTable.find f).bind (·.recv), fun f => (declTable.find f).bind (·.doc), fun t => has implCauseTable t,
    fun f => ((declTable.find f).map (·.pos)).getD 0⟩
  types := ⟨fun f => (((declTable.find f).bind (·.recv)).bind typeTable.find).getD (.other 0),
    fun f => ((declTable.find f).map (·.recvNames)).getD [], fun o => (interfaceTable.find o).isSome,
    fun o => (methodNameTable.find o).getD []⟩
  funcs := [0, 1, 2, 3, 4, 5, 6, 7, 8, 9, 10, 11, 12, 13, 14]
  specs := [⟨2406, .named 270, some [[s19]]⟩]
  ifaces := []
  methodObj := fun n => (methodObjTable.find n).getD 0
  conv := ⟨fun o => (underlyingTable.find o).getD (.other 0), fun n => ((sigTable.find n).map (·.1)).getD [],
    fun n => ((sigTable.find n).map (·.2.1)).getD false, fun n => (tupleTable.find n).getD [], fun n => (structTable.find n).getD [],
    fun t n => ((implTable.find n).map fun tr => has tr t).getD false⟩
  top := [
    .node (.other 2232 [.other 2228 [.ident ⟨2226, s54, none⟩, .basicLit 2227], .other 2231 [.ident ⟨2229, s54, none⟩, .basicLit 2230]]),
    .func 0,
    .func 1,
    .func 2,
    .func 3,
    .func 4,
    .func 5,
    .func 6,
    .func 7,
    .func 8,
    .func 9,
    .node (.other 2406 [.other 2405 [.ident ⟨2399, s24, (some 7)⟩, .other 2404 [.other 2403 [.other 2402 [.ident ⟨2400, s19, (some 13)⟩, .ident
  ⟨2401, s55, none⟩]]]]]),
    .func 10,
    .func 11,
    .func 12,
    .func 13,
    .func 14]
/-- The run, in one order. -/
def result : Except Stop Outcome := runVerify package Check.source true
/-- What is expected.  The comments in the package say (with facts as `object: fact`):
```
dotimport.go:13: RunPackage1: ErrorCodes: hello-error
dotimport.go:22: RunPackage2: ErrorCodes: hello-error
dotimport.go:31: ReturnInner1Error: ErrorCodes: inner1-error
dotimport.go:40: ReturnInner2Error: ErrorCodes: inner2-error
dotimport.go:50: ReturnInner1UnusedError: ErrorCodes: inner1-unused-error
dotimport.go:60: ReturnInner2UnusedError: ErrorCodes: inner2-unused-error
dotimport.go:67: CallToUndeclared1: ErrorCodes: x-error
dotimport.go:69: function "CodeNotDeclared1" in dot-imported package does not declare error codes
dotimport.go:77: CallToUndeclared2: ErrorCodes: x-error
dotimport.go:79: function "CodeNotDeclared2" in dot-imported package does not declare error codes
dotimport.go:87: CallToUndeclared3: ErrorCodes: x-error
dotimport.go:90: called function does not declare error codes
dotimport.go:98: CallToUndeclared4: ErrorCodes: x-error
dotimport.go:101: called function does not declare error codes
dotimport.go:106: Error: ErrorType{Field:{Name:"TheCode", Position:0}, Codes:}
``` -/
def expected : Check.Expected where
  tags := []
  ifaces := []
  signatures := []
  claims := []
  bodies := [(6, { at_ := 2315, msg := Serum.Msg.dotImportUndeclared b!"CodeNotDeclared1" }),
    (7, { at_ := 2335, msg := Serum.Msg.dotImportUndeclared b!"CodeNotDeclared2" }),
    (8, { at_ := 2361, msg := Serum.Msg.calleeUndeclared }),
    (9, { at_ := 2387, msg := Serum.Msg.calleeUndeclared })]
  mismatches := []
  conversions := []
  codes := [(216, [b!"hello-error"]),
    (238, [b!"hello-error"]),
    (260, [b!"hello-error"]),
    (261, [b!"hello-error"]),
    (262, [b!"inner1-error"]),
    (263, [b!"inner2-error"]),
    (264, [b!"inner1-unused-error"]),
    (265, [b!"inner2-unused-error"]),
    (266, [b!"x-error"]),
    (267, [b!"x-error"]),
    (268, [b!"x-error"]),
    (269, [b!"x-error"])]
  ctors := []
  errorTypes := [(220, { codes := [], field := some { name := b!"TheCode", position := 0 } }),
    (226, { codes := [], field := some { name := b!"TheCode", position := 0 } }),
    (242, { codes := [], field := some { name := b!"TheCode", position := 0 } }),
    (248, { codes := [], field := some { name := b!"TheCode", position := 0 } }),
    (270, { codes := [], field := some { name := b!"TheCode", position := 0 } })]
  interfaces := []
  objects := 1385

/-- What functions call, and which literals they visit. -/
def graph : Check.Graph :=
  [([], []), ([], []), ([], []), ([], []), ([], []), ([], []), ([], []), ([], []), ([], []), ([], []), ([], []), ([], []), ([], []), ([], []),
  ([11], [])]

theorem checked : Check.run package true expected graph = true := by decide +kernel

theorem imports : Check.Tables package.env.facts := ((tables_noFacts.merge dotimportInner1.exported).merge dotimportInner2.exported)

theorem exported : Check.Tables (Check.factsOf result) := Check.tables checked imports

/-- The facts known before a run: those exported by some run over the imported packages. -/
def Imported (F : Facts) : Prop :=
  ∃ F0 F1, dotimportInner1.Exports F0 ∧ dotimportInner2.Exports F1 ∧ F = merge (merge (noFacts) F0) F1

/-- The facts known after a run. -/
def Exports (F : Facts) : Prop := Check.Exports package Imported true F

theorem imports_same (F : Facts) (h : Imported F) : Props.Run.SameFacts package.env.facts F := by
  obtain ⟨F0, F1, h0, h1, rfl⟩ := h
  exact (Props.Run.SameFacts.merge (Props.Run.SameFacts.merge (.refl _) (dotimportInner1.exports_same h0)) (dotimportInner2.exports_same h1))

theorem exports_same {F : Facts} (h : Exports F) : Props.Run.SameFacts (Check.factsOf result) F :=
  Check.exports_same checked imports imports_same h

/-- **C54**: every run over the package has the expected result. -/
theorem always : Check.Always package Imported true expected :=
  Check.always checked imports imports_same

/-- For the nodes with diagnostics: file, line, and type of node. -/
def nodes : Tree (GoString × Nat × GoString) :=
  (.node (.node (.node Tree.nil 2315 ((b!"dotimport.go", 69, b!"Ident")) Tree.nil) 2335 ((b!"dotimport.go", 79, b!"Ident")) Tree.nil) 2361 ((b!"dotimport.go", 90, b!"SelectorExpr")) (.node Tree.nil 2387 ((b!"dotimport.go", 101, b!"SelectorExpr")) Tree.nil))

/-- The names of the objects named in diagnostics other than by identifiers. -/
def objectNames : Tree GoString :=
  Tree.nil

def names : Names where
  object := fun o => (objectNames.find o).getD []
  kind := fun n => ((nodes.find n).map fun p => p.2.2).getD []

def place (n : NodeId) : GoString × Nat := ((nodes.find n).map fun p => (p.1, p.2.1)).getD ([], 0)

/-- What is printed: file, line and text. -/
def lines : List Check.Line := [(b!"dotimport.go", 69, b!"function \"CodeNotDeclared1\" in dot-imported package does not declare error codes"),
    (b!"dotimport.go", 79, b!"function \"CodeNotDeclared2\" in dot-imported package does not declare error codes"),
    (b!"dotimport.go", 90, b!"called function does not declare error codes"),
    (b!"dotimport.go", 101, b!"called function does not declare error codes")]

/-- **C54**: for every run over the package, these lines are printed. -/
theorem prints : Check.Prints package Imported true names place lines :=
  Check.prints always (by decide +kernel)

end Serum.Testdata.dotimport
