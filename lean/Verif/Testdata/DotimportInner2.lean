import Verif.Testdata.Support

/-!
# C54: the package analysis/testdata/src/dotimport/inner2

Generated by `scripts/conformance/testdata.py` from inner2.go.  Numbers of syntax nodes, objects and types are arbitrary.  The tables hold
what `go/parser` and `go/types` say about the package.
-/

set_option maxRecDepth 100000
set_option linter.all false

namespace Serum.Testdata.dotimportInner2
open Serum Serum.Testdata

def s0 : GoString := b!"ExportedFunc2"
def s1 : GoString := b!"CodeNotDeclared2"
def s2 : GoString := b!"CodeNotDeclared"
def s3 : GoString := b!"Code"
def s4 : GoString := b!"e"
def s5 : GoString := b!"TheCode"
def s6 : GoString := b!"Message"
def s7 : GoString := b!"Details"
def s8 : GoString := b!"nil"
def s9 : GoString := b!"Cause"
def s10 : GoString := b!"Error"
def s11 : GoString := b!"hello-error"
def s12 : GoString := b!"some-error"
def s13 : GoString := b!"// ExportedFunc2 is a demo function."
def s14 : GoString := b!"//"
def s15 : GoString := b!"// Errors:"
def s16 : GoString := b!"//    - hello-error -- is always returned"
def s17 : GoString := b!"SomeType2"
def s18 : GoString := b!"Inner2Error"
def s19 : GoString := b!"string"
def s20 : GoString := b!"Inner2UnusedError"
/-- inner2.go:8: `func ExportedFunc2` -/
def f0 : FuncDef := ⟨2506, some ⟨2494, s0, (some 0)⟩, ⟨[], (some [⟨[], 2496⟩]), 133⟩, some [.ret 2504 [.unary 2503 true (.compositeLit 2502
  [.basicLit 2501])]], 139, 178⟩
/-- inner2.go:12: `func CodeNotDeclared2` -/
def f1 : FuncDef := ⟨2519, some ⟨2507, s1, (some 2)⟩, ⟨[], (some [⟨[], 2509⟩]), 204⟩, some [.ret 2517 [.unary 2516 true (.compositeLit 2515
  [.basicLit 2514])]], 210, 248⟩
/-- inner2.go:18: `func CodeNotDeclared` -/
def f2 : FuncDef := ⟨2540, some ⟨2528, s2, none⟩, ⟨[], (some [⟨[], 2530⟩]), 310⟩, some [.ret 2538 [.unary 2537 true (.compositeLit 2536 [.basicLit
  2535])]], 316, 354⟩
/-- inner2.go:26: `func Code` -/
def f3 : FuncDef := ⟨2565, some ⟨2554, s3, none⟩, ⟨[], (some [⟨[], 2556⟩]), 430⟩, some [.ret 2563 [.selector 2562 (.ident ⟨2560, s4, (some 5)⟩)
  ⟨2561, s5, none⟩]], 451, 471⟩
/-- inner2.go:27: `func Message` -/
def f4 : FuncDef := ⟨2582, some ⟨2571, s6, none⟩, ⟨[], (some [⟨[], 2573⟩]), 504⟩, some [.ret 2580 [.selector 2579 (.ident ⟨2577, s4, (some 6)⟩)
  ⟨2578, s5, none⟩]], 522, 542⟩
/-- inner2.go:28: `func Details` -/
def f5 : FuncDef := ⟨2599, some ⟨2588, s7, none⟩, ⟨[], (some [⟨[], 2592⟩]), 575⟩, some [.ret 2597 [.ident ⟨2596, s8, none⟩]], 593, 607⟩
/-- inner2.go:29: `func Cause` -/
def f6 : FuncDef := ⟨2614, some ⟨2605, s9, none⟩, ⟨[], (some [⟨[], 2607⟩]), 638⟩, some [.ret 2612 [.ident ⟨2611, s8, none⟩]], 658, 672⟩
/-- inner2.go:30: `func Error` -/
def f7 : FuncDef := ⟨2632, some ⟨2620, s10, none⟩, ⟨[], (some [⟨[], 2622⟩]), 703⟩, some [.ret 2630 [.call 2629 (.selector 2628 (.ident ⟨2626, s4,
  (some 9)⟩) ⟨2627, s6, none⟩) []]], 723, 745⟩
/-- inner2.go:36: `func Code` -/
def f8 : FuncDef := ⟨2657, some ⟨2646, s3, none⟩, ⟨[], (some [⟨[], 2648⟩]), 833⟩, some [.ret 2655 [.selector 2654 (.ident ⟨2652, s4, (some 12)⟩)
  ⟨2653, s5, none⟩]], 841, 861⟩
/-- inner2.go:37: `func Error` -/
def f9 : FuncDef := ⟨2674, some ⟨2663, s10, none⟩, ⟨[], (some [⟨[], 2665⟩]), 898⟩, some [.ret 2672 [.selector 2671 (.ident ⟨2669, s4, (some 13)⟩)
  ⟨2670, s5, none⟩]], 905, 925⟩
/-- The objects of go/ast, in the order of their numbers. -/
def objects : List ObjInfo := [
  ⟨.fun_, 117, (.funcDecl 0)⟩,
  ⟨.typ, 361, .typeSpec⟩,
  ⟨.fun_, 185, (.funcDecl 1)⟩,
  ⟨.typ, 255, .typeSpec⟩,
  ⟨.var, 383, .other⟩,
  ⟨.var, 407, .other⟩,
  ⟨.var, 478, .other⟩,
  ⟨.var, 549, .other⟩,
  ⟨.var, 614, .other⟩,
  ⟨.var, 679, .other⟩,
  ⟨.typ, 752, .typeSpec⟩,
  ⟨.var, 780, .other⟩,
  ⟨.var, 804, .other⟩,
  ⟨.var, 868, .other⟩]
/-- Types of expressions (`Info.Types`, `Info.Defs`, `Info.Uses`). -/
def typeTable : Tree GoType := (.node (.node (.node (.node (.node (.node (.node Tree.nil 2494 (.signature 6) Tree.nil) 2496 (.named 19) Tree.nil)
  2499 (.signature 6) (.node (.node Tree.nil 2500 (.named 242) Tree.nil) 2501 (.string) Tree.nil)) 2502 (.named 242) (.node (.node (.node Tree.nil
  2503 (.pointer (.named 242)) Tree.nil) 2507 (.signature 6) Tree.nil) 2509 (.named 19) (.node (.node Tree.nil 2512 (.signature 6) Tree.nil) 2513
  (.named 242) Tree.nil))) 2514 (.string) (.node (.node (.node (.node Tree.nil 2515 (.named 242) Tree.nil) 2516 (.pointer (.named 242)) Tree.nil)
  2520 (.named 240) (.node (.node Tree.nil 2522 (.struct 2) Tree.nil) 2525 (.named 240) Tree.nil)) 2528 (.signature 6) (.node (.node (.node Tree.nil
  2530 (.named 19) Tree.nil) 2533 (.signature 6) Tree.nil) 2534 (.named 242) (.node (.node Tree.nil 2535 (.string) Tree.nil) 2536 (.named 242)
  Tree.nil)))) 2537 (.pointer (.named 242)) (.node (.node (.node (.node (.node Tree.nil 2541 (.named 242) Tree.nil) 2542 (.string) Tree.nil) 2543
  (.string) (.node (.node Tree.nil 2546 (.struct 1) Tree.nil) 2549 (.pointer (.named 242)) Tree.nil)) 2550 (.named 242) (.node (.node (.node
  Tree.nil 2551 (.pointer (.named 242)) Tree.nil) 2554 (.signature 11) Tree.nil) 2556 (.string) (.node (.node Tree.nil 2559 (.signature 11)
  Tree.nil) 2560 (.pointer (.named 242)) Tree.nil))) 2561 (.string) (.node (.node (.node (.node Tree.nil 2562 (.string) Tree.nil) 2566 (.pointer
  (.named 242)) Tree.nil) 2567 (.named 242) (.node (.node Tree.nil 2568 (.pointer (.named 242)) Tree.nil) 2571 (.signature 11) Tree.nil)) 2573
  (.string) (.node (.node (.node Tree.nil 2576 (.signature 11) Tree.nil) 2577 (.pointer (.named 242)) Tree.nil) 2578 (.string) (.node (.node
  Tree.nil 2579 (.string) Tree.nil) 2583 (.pointer (.named 242)) Tree.nil))))) 2584 (.named 242) (.node (.node (.node (.node (.node (.node Tree.nil
  2585 (.pointer (.named 242)) Tree.nil) 2588 (.signature 23) Tree.nil) 2590 (.string) (.node (.node Tree.nil 2591 (.string) Tree.nil) 2592 (.map
  (.string) (.string)) Tree.nil)) 2595 (.signature 23) (.node (.node (.node Tree.nil 2596 (.untypedNil) Tree.nil) 2600 (.pointer (.named 242))
  Tree.nil) 2601 (.named 242) (.node (.node Tree.nil 2602 (.pointer (.named 242)) Tree.nil) 2605 (.signature 6) Tree.nil))) 2607 (.named 19) (.node
  (.node (.node (.node Tree.nil 2610 (.signature 6) Tree.nil) 2611 (.untypedNil) Tree.nil) 2615 (.pointer (.named 242)) (.node (.node Tree.nil 2616
  (.named 242) Tree.nil) 2617 (.pointer (.named 242)) Tree.nil)) 2620 (.signature 11) (.node (.node (.node Tree.nil 2622 (.string) Tree.nil) 2625
  (.signature 11) Tree.nil) 2626 (.pointer (.named 242)) (.node (.node Tree.nil 2627 (.signature 11) Tree.nil) 2628 (.signature 11) Tree.nil))))
  2629 (.string) (.node (.node (.node (.node (.node Tree.nil 2633 (.named 248) Tree.nil) 2634 (.string) Tree.nil) 2635 (.string) (.node (.node
  Tree.nil 2638 (.struct 1) Tree.nil) 2641 (.pointer (.named 248)) Tree.nil)) 2642 (.named 248) (.node (.node (.node Tree.nil 2643 (.pointer (.named
  248)) Tree.nil) 2646 (.signature 11) Tree.nil) 2648 (.string) (.node (.node Tree.nil 2651 (.signature 11) Tree.nil) 2652 (.pointer (.named 248))
  Tree.nil))) 2653 (.string) (.node (.node (.node (.node Tree.nil 2654 (.string) Tree.nil) 2658 (.pointer (.named 248)) Tree.nil) 2659 (.named 248)
  (.node (.node Tree.nil 2660 (.pointer (.named 248)) Tree.nil) 2663 (.signature 11) Tree.nil)) 2665 (.string) (.node (.node (.node Tree.nil 2668
  (.signature 11) Tree.nil) 2669 (.pointer (.named 248)) Tree.nil) 2670 (.string) (.node Tree.nil 2671 (.string) Tree.nil))))))
/-- Constant values of expressions. -/
def valueTable : Tree Const := (.node (.node Tree.nil 2501 (.str s11) Tree.nil) 2514 (.str s12) (.node Tree.nil 2535 (.str s12) Tree.nil))
/-- `typeutil.Callee` of call expressions. -/
def calleeTable : Tree Nat := (.node Tree.nil 2629 (244) Tree.nil)
/-- `Info.Uses`. -/
def usesTable : Tree Nat := (.node (.node (.node (.node (.node (.node Tree.nil 2496 (19) Tree.nil) 2500 (242) Tree.nil) 2509 (19) (.node Tree.nil
  2513 (242) Tree.nil)) 2525 (240) (.node (.node (.node Tree.nil 2530 (19) Tree.nil) 2534 (242) Tree.nil) 2543 (16) (.node Tree.nil 2550 (242)
  Tree.nil))) 2556 (16) (.node (.node (.node (.node Tree.nil 2560 (253) Tree.nil) 2561 (105) Tree.nil) 2567 (242) (.node Tree.nil 2573 (16)
  Tree.nil)) 2577 (254) (.node (.node Tree.nil 2578 (105) Tree.nil) 2584 (242) (.node Tree.nil 2590 (16) Tree.nil)))) 2591 (16) (.node (.node (.node
  (.node (.node Tree.nil 2596 (23) Tree.nil) 2601 (242) Tree.nil) 2607 (19) (.node Tree.nil 2611 (23) Tree.nil)) 2616 (242) (.node (.node Tree.nil
  2622 (16) Tree.nil) 2626 (257) (.node Tree.nil 2627 (244) Tree.nil))) 2635 (16) (.node (.node (.node (.node Tree.nil 2642 (248) Tree.nil) 2648
  (16) Tree.nil) 2652 (258) (.node Tree.nil 2653 (105) Tree.nil)) 2659 (248) (.node (.node Tree.nil 2665 (16) Tree.nil) 2669 (259) (.node Tree.nil
  2670 (105) Tree.nil)))))
/-- `Info.Selections`. -/
def selectionTable : Tree (GoType × Nat) := (.node (.node (.node Tree.nil 2562 ((.pointer (.named 242), 105)) Tree.nil) 2579 ((.pointer (.named
  242), 105)) Tree.nil) 2628 ((.pointer (.named 242), 244)) (.node (.node Tree.nil 2654 ((.pointer (.named 248), 105)) Tree.nil) 2671 ((.pointer
  (.named 248), 105)) Tree.nil))
/-- Identifiers that are names of imported packages. -/
def pkgNameTable : Tree GoString := Tree.nil
/-- Method sets. -/
def methodSetTable : Tree (List (GoString × Nat)) := (.node (.node (.node Tree.nil 27 ([(s10, 1386)]) Tree.nil) 95 ([(s10, 20)]) (.node Tree.nil
  1200 ([(s2, 241)]) Tree.nil)) 1201 ([(s2, 241)]) (.node (.node Tree.nil 1211 ([(s9, 246), (s3, 243), (s7, 245), (s10, 247), (s6, 244)]) Tree.nil)
  1241 ([(s3, 249), (s10, 250)]) Tree.nil))
/-- Types implementing `error`. -/
def implErrorTable : Tree Unit := (.node (.node (.node Tree.nil 27 (()) Tree.nil) 95 (()) Tree.nil) 1211 (()) (.node Tree.nil 1241 (()) Tree.nil))
/-- Types implementing `error` with a code. -/
def implCodeTable : Tree Unit := (.node (.node Tree.nil 1211 (()) Tree.nil) 1241 (()) Tree.nil)
/-- Types implementing `error` with a cause. -/
def implCauseTable : Tree Unit := (.node Tree.nil 1211 (()) Tree.nil)
/-- Signatures: types of parameters, variadic, number of results. -/
def sigTable : Tree (List GoType × Bool × Nat) := (.node (.node Tree.nil 6 (([], false, 1)) Tree.nil) 11 (([], false, 1)) (.node Tree.nil 23 (([],
  false, 1)) Tree.nil))
/-- Tuples of results. -/
def tupleTable : Tree (List GoType) := Tree.nil
/-- Fields of structs. -/
def structTable : Tree (List (GoString × GoType)) := (.node (.node Tree.nil 1 ([(s5, .string)]) Tree.nil) 2 ([]) Tree.nil)
/-- Underlying types of named types. -/
def underlyingTable : Tree GoType := (.node (.node (.node Tree.nil 19 (.interface 5) Tree.nil) 240 (.struct 2) Tree.nil) 242 (.struct 1) (.node
  Tree.nil 248 (.struct 1) Tree.nil))
/-- Which types implement which interfaces. -/
def implTable : Tree (Tree Unit) := (.node Tree.nil 5 ((.node (.node (.node Tree.nil 27 (()) Tree.nil) 95 (()) Tree.nil) 1211 (()) (.node Tree.nil
  1241 (()) Tree.nil))) Tree.nil)
/-- Comments at return statements (`ast.NewCommentMap`). -/
def commentTable : Tree (List (List GoString)) := Tree.nil
/-- Function declarations. -/
def declTable : Tree DeclInfo := (.node (.node (.node (.node Tree.nil 0 (⟨s0, true, none, some (CommentText.text [s13, s14, s15, s14, s16]), 2506,
  238, []⟩) Tree.nil) 1 (⟨s1, true, none, none, 2519, 239, []⟩) Tree.nil) 2 (⟨s2, true, some 2525, none, 2540, 241, []⟩) (.node (.node Tree.nil 3
  (⟨s3, true, some 2551, none, 2565, 243, [⟨2549, s4, (some 5)⟩]⟩) Tree.nil) 4 (⟨s6, true, some 2568, none, 2582, 244, [⟨2566, s4, (some 6)⟩]⟩)
  Tree.nil)) 5 (⟨s7, true, some 2585, none, 2599, 245, [⟨2583, s4, (some 7)⟩]⟩) (.node (.node (.node Tree.nil 6 (⟨s9, true, some 2602, none, 2614,
  246, [⟨2600, s4, (some 8)⟩]⟩) Tree.nil) 7 (⟨s10, true, some 2617, none, 2632, 247, [⟨2615, s4, (some 9)⟩]⟩) Tree.nil) 8 (⟨s3, true, some 2643,
  none, 2657, 249, [⟨2641, s4, (some 12)⟩]⟩) (.node Tree.nil 9 (⟨s10, true, some 2660, none, 2674, 250, [⟨2658, s4, (some 13)⟩]⟩) Tree.nil)))
/-- Named interfaces. -/
def interfaceTable : Tree Unit := (.node Tree.nil 19 (()) Tree.nil)
/-- Methods of named types. -/
def methodNameTable : Tree (List GoString) := (.node (.node Tree.nil 240 ([s2]) Tree.nil) 242 ([s3, s6, s7, s9, s10]) (.node Tree.nil 248 ([s3,
  s10]) Tree.nil))
/-- Objects of interface methods. -/
def methodObjTable : Tree Nat := Tree.nil
/-- Syntax and types of the package, and the facts exported by the packages it imports. -/
def env : Env where
  funcs := [f0, f1, f2, f3, f4, f5, f6, f7, f8, f9]
  objects := objects
  typeOf := fun n => (typeTable.find n).getD (.other 0)
  value := valueTable.find
  callee := calleeTable.find
  uses := usesTable.find
  selection := selectionTable.find
  pkgName := pkgNameTable.find
  funcObj := fun f => ((declTable.find f).map (·.obj)).getD 0
  implError := fun t => has implErrorTable t
  implCode := fun t => has implCodeTable t
  sigResults := fun n => ((sigTable.find n).map (·.2.2)).getD 0
  methodSet := fun t name => ((typeKey t).bind methodSetTable.find).bind fun l => lookup name l
  functions := fun _ => none
  methods := fun _ => []
  comments := fun n => ((commentTable.find n).getD []).map CommentText.text
  isPrint := fun r => 32 ≤ r && r < 127
  facts := noFacts
/-- The package. -/
def package : Package where
  env := env
  decls := ⟨fun f => ((declTable.find f).map (·.name)).getD [], fun f => ((declTable.find f).map (·.exported)).getD false,
    fun f => (declTable.find f).bind (·.recv), fun f => (declTable.find f).bind (·.doc), fun t => has implCauseTable t,
    fun f => ((declTable.find f).map (·.pos)).getD 0⟩
  types := ⟨fun f => (((declTable.find f).bind (·.recv)).bind typeTable.find).getD (.other 0),
    fun f => ((declTable.find f).map (·.recvNames)).getD [], fun o => (interfaceTable.find o).isSome,
    fun o => (methodNameTable.find o).getD []⟩
  funcs := [0, 1, 2, 3, 4, 5, 6, 7, 8, 9]
  specs := [⟨2524, .named 240, some []⟩, ⟨2548, .named 242, some [[s5]]⟩, ⟨2640, .named 248, some [[s5]]⟩]
  ifaces := []
  methodObj := fun n => (methodObjTable.find n).getD 0
  conv := ⟨fun o => (underlyingTable.find o).getD (.other 0), fun n => ((sigTable.find n).map (·.1)).getD [],
    fun n => ((sigTable.find n).map (·.2.1)).getD false, fun n => (tupleTable.find n).getD [], fun n => (structTable.find n).getD [],
    fun t n => ((implTable.find n).map fun tr => has tr t).getD false⟩
  top := [
    .func 0,
    .func 1,
    .node (.other 2524 [.other 2523 [.ident ⟨2520, s17, (some 3)⟩, .other 2522 [.other 2521 []]]]),
    .func 2,
    .node (.other 2548 [.other 2547 [.ident ⟨2541, s18, (some 1)⟩, .other 2546 [.other 2545 [.other 2544 [.ident ⟨2542, s5, (some 4)⟩, .ident ⟨2543,
  s19, none⟩]]]]]),
    .func 3,
    .func 4,
    .func 5,
    .func 6,
    .func 7,
    .node (.other 2640 [.other 2639 [.ident ⟨2633, s20, (some 10)⟩, .other 2638 [.other 2637 [.other 2636 [.ident ⟨2634, s5, (some 11)⟩, .ident
  ⟨2635, s19, none⟩]]]]]),
    .func 8,
    .func 9]
/-- The run, in one order. -/
def result : Except Stop Outcome := runVerify package Check.source true
/-- What is expected.  The comments in the package say (with facts as `object: fact`):
```

``` -/
def expected : Check.Expected where
  tags := []
  ifaces := []
  signatures := []
  claims := [{ at_ := 2519, msg := Serum.ClaimMsg.exportedUndeclared b!"CodeNotDeclared2" },
    { at_ := 2540, msg := Serum.ClaimMsg.exportedUndeclared b!"CodeNotDeclared" }]
  bodies := []
  mismatches := []
  conversions := []
  codes := [(238, [b!"hello-error"])]
  ctors := []
  errorTypes := [(242, { codes := [], field := some { name := b!"TheCode", position := 0 } }),
    (248, { codes := [], field := some { name := b!"TheCode", position := 0 } })]
  interfaces := []
  objects := 1385

/-- What functions call, and which literals they visit. -/
def graph : Check.Graph :=
  [([], []), ([], []), ([], []), ([], []), ([], []), ([], []), ([], []), ([4], []), ([], []), ([], [])]

theorem checked : Check.run package true expected graph = true := by decide +kernel

theorem imports : Check.Tables package.env.facts := tables_noFacts

theorem exported : Check.Tables (Check.factsOf result) := Check.tables checked imports

/-- The facts known before a run: those exported by some run over the imported packages. -/
def Imported (F : Facts) : Prop :=
  F = noFacts

/-- The facts known after a run. -/
def Exports (F : Facts) : Prop := Check.Exports package Imported true F

theorem imports_same (F : Facts) (h : Imported F) : Props.Run.SameFacts package.env.facts F := by
  obtain rfl := h
  exact (.refl _)

theorem exports_same {F : Facts} (h : Exports F) : Props.Run.SameFacts (Check.factsOf result) F :=
  Check.exports_same checked imports imports_same h

/-- **C54**: every run over the package has the expected result. -/
theorem always : Check.Always package Imported true expected :=
  Check.always checked imports imports_same

/-- For the nodes with diagnostics: file, line, and type of node. -/
def nodes : Tree (GoString × Nat × GoString) :=
  (.node (.node Tree.nil 2519 ((b!"inner2.go", 12, b!"FuncDecl")) Tree.nil) 2540 ((b!"inner2.go", 18, b!"FuncDecl")) Tree.nil)

/-- The names of the objects named in diagnostics other than by identifiers. -/
def objectNames : Tree GoString :=
  Tree.nil

def names : Names where
  object := fun o => (objectNames.find o).getD []
  kind := fun n => ((nodes.find n).map fun p => p.2.2).getD []

def place (n : NodeId) : GoString × Nat := ((nodes.find n).map fun p => (p.1, p.2.1)).getD ([], 0)

/-- What is printed: file, line and text. -/
def lines : List Check.Line := [(b!"inner2.go", 12, b!"function \"CodeNotDeclared2\" is exported, but does not declare any error codes"),
    (b!"inner2.go", 18, b!"function \"CodeNotDeclared\" is exported, but does not declare any error codes")]

/-- **C54**: for every run over the package, these lines are printed. -/
theorem prints : Check.Prints package Imported true names place lines :=
  Check.prints always (by decide +kernel)

end Serum.Testdata.dotimportInner2
