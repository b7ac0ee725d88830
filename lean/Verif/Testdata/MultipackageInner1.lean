import Verif.Testdata.Support

/-!
# C54: the package analysis/testdata/src/multipackage/inner1

Generated by `scripts/conformance/testdata.py` from inner1.go.  Numbers of syntax nodes, objects and types are arbitrary.  The tables hold
what `go/parser` and `go/types` say about the package.
-/

set_option maxRecDepth 100000
set_option linter.all false

namespace Serum.Testdata.multipackageInner1
open Serum Serum.Testdata

def s0 : GoString := b!"ExportedFunc1"
def s1 : GoString := b!"CodeNotDeclared"
def s2 : GoString := b!"Code"
def s3 : GoString := b!"e"
def s4 : GoString := b!"TheCode"
def s5 : GoString := b!"Message"
def s6 : GoString := b!"Details"
def s7 : GoString := b!"nil"
def s8 : GoString := b!"Cause"
def s9 : GoString := b!"Error"
def s10 : GoString := b!"hello-error"
def s11 : GoString := b!"some-error"
def s12 : GoString := b!"// want ExportedFunc1:\"ErrorCodes: hello-error\""
def s13 : GoString := b!"// want `function \"CodeNotDeclared\" is exported, but does not declare any error codes`"
def s14 : GoString := b!"// ExportedFunc1 is a demo function."
def s15 : GoString := b!"//"
def s16 : GoString := b!"// Errors:"
def s17 : GoString := b!"//    - hello-error -- is always returned"
def s18 : GoString := b!"SomeType"
def s19 : GoString := b!"string"
def s20 : GoString := b!"UnusedError"
/-- inner1.go:8: `func ExportedFunc1` -/
def f0 : FuncDef := ⟨12585, some ⟨12573, s0, (some 0)⟩, ⟨[], (some [⟨[], 12575⟩]), 133⟩, some [.ret 12583 [.unary 12582 true (.compositeLit 12581
  [.basicLit 12580])]], 139, 220⟩
/-- inner1.go:12: `func CodeNotDeclared` -/
def f1 : FuncDef := ⟨12598, some ⟨12586, s1, (some 2)⟩, ⟨[], (some [⟨[], 12588⟩]), 245⟩, some [.ret 12596 [.unary 12595 true (.compositeLit 12594
  [.basicLit 12593])]], 251, 370⟩
/-- inner1.go:18: `func CodeNotDeclared` -/
def f2 : FuncDef := ⟨12619, some ⟨12607, s1, none⟩, ⟨[], (some [⟨[], 12609⟩]), 430⟩, some [.ret 12617 [.unary 12616 true (.compositeLit 12615
  [.basicLit 12614])]], 436, 555⟩
/-- inner1.go:26: `func Code` -/
def f3 : FuncDef := ⟨12644, some ⟨12633, s2, none⟩, ⟨[], (some [⟨[], 12635⟩]), 689⟩, some [.ret 12642 [.selector 12641 (.ident ⟨12639, s3, (some
  5)⟩) ⟨12640, s4, none⟩]], 710, 730⟩
/-- inner1.go:27: `func Message` -/
def f4 : FuncDef := ⟨12661, some ⟨12650, s5, none⟩, ⟨[], (some [⟨[], 12652⟩]), 757⟩, some [.ret 12659 [.selector 12658 (.ident ⟨12656, s3, (some
  6)⟩) ⟨12657, s4, none⟩]], 775, 795⟩
/-- inner1.go:28: `func Details` -/
def f5 : FuncDef := ⟨12678, some ⟨12667, s6, none⟩, ⟨[], (some [⟨[], 12671⟩]), 822⟩, some [.ret 12676 [.ident ⟨12675, s7, none⟩]], 840, 854⟩
/-- inner1.go:29: `func Cause` -/
def f6 : FuncDef := ⟨12693, some ⟨12684, s8, none⟩, ⟨[], (some [⟨[], 12686⟩]), 879⟩, some [.ret 12691 [.ident ⟨12690, s7, none⟩]], 899, 913⟩
/-- inner1.go:30: `func Error` -/
def f7 : FuncDef := ⟨12711, some ⟨12699, s9, none⟩, ⟨[], (some [⟨[], 12701⟩]), 938⟩, some [.ret 12709 [.call 12708 (.selector 12707 (.ident ⟨12705,
  s3, (some 9)⟩) ⟨12706, s5, none⟩) []]], 958, 980⟩
/-- inner1.go:36: `func Code` -/
def f8 : FuncDef := ⟨12736, some ⟨12725, s2, none⟩, ⟨[], (some [⟨[], 12727⟩]), 1132⟩, some [.ret 12734 [.selector 12733 (.ident ⟨12731, s3, (some
  12)⟩) ⟨12732, s4, none⟩]], 1140, 1160⟩
/-- inner1.go:37: `func Error` -/
def f9 : FuncDef := ⟨12753, some ⟨12742, s9, none⟩, ⟨[], (some [⟨[], 12744⟩]), 1191⟩, some [.ret 12751 [.selector 12750 (.ident ⟨12748, s3, (some
  13)⟩) ⟨12749, s4, none⟩]], 1198, 1218⟩
/-- The objects of go/ast, in the order of their numbers. -/
def objects : List ObjInfo := [
  ⟨.fun_, 117, (.funcDecl 0)⟩,
  ⟨.typ, 562, .typeSpec⟩,
  ⟨.fun_, 227, (.funcDecl 1)⟩,
  ⟨.typ, 377, .typeSpec⟩,
  ⟨.var, 648, .other⟩,
  ⟨.var, 672, .other⟩,
  ⟨.var, 737, .other⟩,
  ⟨.var, 802, .other⟩,
  ⟨.var, 861, .other⟩,
  ⟨.var, 920, .other⟩,
  ⟨.typ, 987, .typeSpec⟩,
  ⟨.var, 1085, .other⟩,
  ⟨.var, 1109, .other⟩,
  ⟨.var, 1167, .other⟩]
/-- Types of expressions (`Info.Types`, `Info.Defs`, `Info.Uses`). -/
def typeTable : Tree GoType := (.node (.node (.node (.node (.node (.node (.node Tree.nil 12573 (.signature 6) Tree.nil) 12575 (.named 19) Tree.nil)
  12578 (.signature 6) (.node (.node Tree.nil 12579 (.named 1211) Tree.nil) 12580 (.string) Tree.nil)) 12581 (.named 1211) (.node (.node (.node
  Tree.nil 12582 (.pointer (.named 1211)) Tree.nil) 12586 (.signature 6) Tree.nil) 12588 (.named 19) (.node (.node Tree.nil 12591 (.signature 6)
  Tree.nil) 12592 (.named 1211) Tree.nil))) 12593 (.string) (.node (.node (.node (.node Tree.nil 12594 (.named 1211) Tree.nil) 12595 (.pointer
  (.named 1211)) Tree.nil) 12599 (.named 1209) (.node (.node Tree.nil 12601 (.struct 2) Tree.nil) 12604 (.named 1209) Tree.nil)) 12607 (.signature
  6) (.node (.node (.node Tree.nil 12609 (.named 19) Tree.nil) 12612 (.signature 6) Tree.nil) 12613 (.named 1211) (.node (.node Tree.nil 12614
  (.string) Tree.nil) 12615 (.named 1211) Tree.nil)))) 12616 (.pointer (.named 1211)) (.node (.node (.node (.node (.node Tree.nil 12620 (.named
  1211) Tree.nil) 12621 (.string) Tree.nil) 12622 (.string) (.node (.node Tree.nil 12625 (.struct 1) Tree.nil) 12628 (.pointer (.named 1211))
  Tree.nil)) 12629 (.named 1211) (.node (.node (.node Tree.nil 12630 (.pointer (.named 1211)) Tree.nil) 12633 (.signature 11) Tree.nil) 12635
  (.string) (.node (.node Tree.nil 12638 (.signature 11) Tree.nil) 12639 (.pointer (.named 1211)) Tree.nil))) 12640 (.string) (.node (.node (.node
  (.node Tree.nil 12641 (.string) Tree.nil) 12645 (.pointer (.named 1211)) Tree.nil) 12646 (.named 1211) (.node (.node Tree.nil 12647 (.pointer
  (.named 1211)) Tree.nil) 12650 (.signature 11) Tree.nil)) 12652 (.string) (.node (.node (.node Tree.nil 12655 (.signature 11) Tree.nil) 12656
  (.pointer (.named 1211)) Tree.nil) 12657 (.string) (.node (.node Tree.nil 12658 (.string) Tree.nil) 12662 (.pointer (.named 1211)) Tree.nil)))))
  12663 (.named 1211) (.node (.node (.node (.node (.node (.node Tree.nil 12664 (.pointer (.named 1211)) Tree.nil) 12667 (.signature 23) Tree.nil)
  12669 (.string) (.node (.node Tree.nil 12670 (.string) Tree.nil) 12671 (.map (.string) (.string)) Tree.nil)) 12674 (.signature 23) (.node (.node
  (.node Tree.nil 12675 (.untypedNil) Tree.nil) 12679 (.pointer (.named 1211)) Tree.nil) 12680 (.named 1211) (.node (.node Tree.nil 12681 (.pointer
  (.named 1211)) Tree.nil) 12684 (.signature 6) Tree.nil))) 12686 (.named 19) (.node (.node (.node (.node Tree.nil 12689 (.signature 6) Tree.nil)
  12690 (.untypedNil) Tree.nil) 12694 (.pointer (.named 1211)) (.node (.node Tree.nil 12695 (.named 1211) Tree.nil) 12696 (.pointer (.named 1211))
  Tree.nil)) 12699 (.signature 11) (.node (.node (.node Tree.nil 12701 (.string) Tree.nil) 12704 (.signature 11) Tree.nil) 12705 (.pointer (.named
  1211)) (.node (.node Tree.nil 12706 (.signature 11) Tree.nil) 12707 (.signature 11) Tree.nil)))) 12708 (.string) (.node (.node (.node (.node
  (.node Tree.nil 12712 (.named 1217) Tree.nil) 12713 (.string) Tree.nil) 12714 (.string) (.node (.node Tree.nil 12717 (.struct 1) Tree.nil) 12720
  (.pointer (.named 1217)) Tree.nil)) 12721 (.named 1217) (.node (.node (.node Tree.nil 12722 (.pointer (.named 1217)) Tree.nil) 12725 (.signature
  11) Tree.nil) 12727 (.string) (.node (.node Tree.nil 12730 (.signature 11) Tree.nil) 12731 (.pointer (.named 1217)) Tree.nil))) 12732 (.string)
  (.node (.node (.node (.node Tree.nil 12733 (.string) Tree.nil) 12737 (.pointer (.named 1217)) Tree.nil) 12738 (.named 1217) (.node (.node Tree.nil
  12739 (.pointer (.named 1217)) Tree.nil) 12742 (.signature 11) Tree.nil)) 12744 (.string) (.node (.node (.node Tree.nil 12747 (.signature 11)
  Tree.nil) 12748 (.pointer (.named 1217)) Tree.nil) 12749 (.string) (.node Tree.nil 12750 (.string) Tree.nil))))))
/-- Constant values of expressions. -/
def valueTable : Tree Const := (.node (.node Tree.nil 12580 (.str s10) Tree.nil) 12593 (.str s11) (.node Tree.nil 12614 (.str s11) Tree.nil))
/-- `typeutil.Callee` of call expressions. -/
def calleeTable : Tree Nat := (.node Tree.nil 12708 (1213) Tree.nil)
/-- `Info.Uses`. -/
def usesTable : Tree Nat := (.node (.node (.node (.node (.node (.node Tree.nil 12575 (19) Tree.nil) 12579 (1211) Tree.nil) 12588 (19) (.node
  Tree.nil 12592 (1211) Tree.nil)) 12604 (1209) (.node (.node (.node Tree.nil 12609 (19) Tree.nil) 12613 (1211) Tree.nil) 12622 (16) (.node Tree.nil
  12629 (1211) Tree.nil))) 12635 (16) (.node (.node (.node (.node Tree.nil 12639 (1222) Tree.nil) 12640 (105) Tree.nil) 12646 (1211) (.node Tree.nil
  12652 (16) Tree.nil)) 12656 (1223) (.node (.node Tree.nil 12657 (105) Tree.nil) 12663 (1211) (.node Tree.nil 12669 (16) Tree.nil)))) 12670 (16)
  (.node (.node (.node (.node (.node Tree.nil 12675 (23) Tree.nil) 12680 (1211) Tree.nil) 12686 (19) (.node Tree.nil 12690 (23) Tree.nil)) 12695
  (1211) (.node (.node Tree.nil 12701 (16) Tree.nil) 12705 (1226) (.node Tree.nil 12706 (1213) Tree.nil))) 12714 (16) (.node (.node (.node (.node
  Tree.nil 12721 (1217) Tree.nil) 12727 (16) Tree.nil) 12731 (1227) (.node Tree.nil 12732 (105) Tree.nil)) 12738 (1217) (.node (.node Tree.nil 12744
  (16) Tree.nil) 12748 (1228) (.node Tree.nil 12749 (105) Tree.nil)))))
/-- `Info.Selections`. -/
def selectionTable : Tree (GoType × Nat) := (.node (.node (.node Tree.nil 12641 ((.pointer (.named 1211), 105)) Tree.nil) 12658 ((.pointer (.named
  1211), 105)) Tree.nil) 12707 ((.pointer (.named 1211), 1213)) (.node (.node Tree.nil 12733 ((.pointer (.named 1217), 105)) Tree.nil) 12750
  ((.pointer (.named 1217), 105)) Tree.nil))
/-- Identifiers that are names of imported packages. -/
def pkgNameTable : Tree GoString := Tree.nil
/-- Method sets. -/
def methodSetTable : Tree (List (GoString × Nat)) := (.node (.node (.node Tree.nil 27 ([(s9, 1386)]) Tree.nil) 95 ([(s9, 20)]) (.node Tree.nil 6045
  ([(s1, 1210)]) Tree.nil)) 6046 ([(s1, 1210)]) (.node (.node Tree.nil 6056 ([(s8, 1215), (s2, 1212), (s6, 1214), (s9, 1216), (s5, 1213)]) Tree.nil)
  6086 ([(s2, 1218), (s9, 1219)]) Tree.nil))
/-- Types implementing `error`. -/
def implErrorTable : Tree Unit := (.node (.node (.node Tree.nil 27 (()) Tree.nil) 95 (()) Tree.nil) 6056 (()) (.node Tree.nil 6086 (()) Tree.nil))
/-- Types implementing `error` with a code. -/
def implCodeTable : Tree Unit := (.node (.node Tree.nil 6056 (()) Tree.nil) 6086 (()) Tree.nil)
/-- Types implementing `error` with a cause. -/
def implCauseTable : Tree Unit := (.node Tree.nil 6056 (()) Tree.nil)
/-- Signatures: types of parameters, variadic, number of results. -/
def sigTable : Tree (List GoType × Bool × Nat) := (.node (.node Tree.nil 6 (([], false, 1)) Tree.nil) 11 (([], false, 1)) (.node Tree.nil 23 (([],
  false, 1)) Tree.nil))
/-- Tuples of results. -/
def tupleTable : Tree (List GoType) := Tree.nil
/-- Fields of structs. -/
def structTable : Tree (List (GoString × GoType)) := (.node (.node Tree.nil 1 ([(s4, .string)]) Tree.nil) 2 ([]) Tree.nil)
/-- Underlying types of named types. -/
def underlyingTable : Tree GoType := (.node (.node (.node Tree.nil 19 (.interface 5) Tree.nil) 1209 (.struct 2) Tree.nil) 1211 (.struct 1) (.node
  Tree.nil 1217 (.struct 1) Tree.nil))
/-- Which types implement which interfaces. -/
def implTable : Tree (Tree Unit) := (.node Tree.nil 5 ((.node (.node (.node Tree.nil 27 (()) Tree.nil) 95 (()) Tree.nil) 6056 (()) (.node Tree.nil
  6086 (()) Tree.nil))) Tree.nil)
/-- Comments at return statements (`ast.NewCommentMap`). -/
def commentTable : Tree (List (List GoString)) := (.node (.node Tree.nil 12583 ([[s12]]) Tree.nil) 12596 ([[s13]]) (.node Tree.nil 12617 ([[s13]])
  Tree.nil))
/-- Function declarations. -/
def declTable : Tree DeclInfo := (.node (.node (.node (.node Tree.nil 0 (⟨s0, true, none, some (CommentText.text [s14, s15, s16, s15, s17]), 12585,
  1207, []⟩) Tree.nil) 1 (⟨s1, true, none, none, 12598, 1208, []⟩) Tree.nil) 2 (⟨s1, true, some 12604, none, 12619, 1210, []⟩) (.node (.node
  Tree.nil 3 (⟨s2, true, some 12630, none, 12644, 1212, [⟨12628, s3, (some 5)⟩]⟩) Tree.nil) 4 (⟨s5, true, some 12647, none, 12661, 1213, [⟨12645,
  s3, (some 6)⟩]⟩) Tree.nil)) 5 (⟨s6, true, some 12664, none, 12678, 1214, [⟨12662, s3, (some 7)⟩]⟩) (.node (.node (.node Tree.nil 6 (⟨s8, true,
  some 12681, none, 12693, 1215, [⟨12679, s3, (some 8)⟩]⟩) Tree.nil) 7 (⟨s9, true, some 12696, none, 12711, 1216, [⟨12694, s3, (some 9)⟩]⟩)
  Tree.nil) 8 (⟨s2, true, some 12722, none, 12736, 1218, [⟨12720, s3, (some 12)⟩]⟩) (.node Tree.nil 9 (⟨s9, true, some 12739, none, 12753, 1219,
  [⟨12737, s3, (some 13)⟩]⟩) Tree.nil)))
/-- Named interfaces. -/
def interfaceTable : Tree Unit := (.node Tree.nil 19 (()) Tree.nil)
/-- Methods of named types. -/
def methodNameTable : Tree (List GoString) := (.node (.node Tree.nil 1209 ([s1]) Tree.nil) 1211 ([s2, s5, s6, s8, s9]) (.node Tree.nil 1217 ([s2,
  s9]) Tree.nil))
/-- Objects of interface methods. -/
def methodObjTable : Tree Nat := Tree.nil
/-- Syntax and types of the package, and the facts exported by the packages it imports. -/
def env : Env where
  funcs := [f0, f1, f2, f3, f4, f5, f6, f7, f8, f9]
  objects := objects
  typeOf := fun n => (typeTable.find n).getD (.other 0)
  value := valueTable.find
  callee := calleeTable.find
  uses := usesTable.find
  selection := selectionTable.find
  pkgName := pkgNameTable.find
  funcObj := fun f => ((declTable.find f).map (·.obj)).getD 0
  implError := fun t => has implErrorTable t
  implCode := fun t => has implCodeTable t
  sigResults := fun n => ((sigTable.find n).map (·.2.2)).getD 0
  methodSet := fun t name => ((typeKey t).bind methodSetTable.find).bind fun l => lookup name l
  functions := fun _ => none
  methods := fun _ => []
  comments := fun n => ((commentTable.find n).getD []).map CommentText.text
  isPrint := fun r => 32 ≤ r && r < 127
  facts := noFacts
/-- The package. -/
def package : Package where
  env := env
  decls := ⟨fun f => ((declTable.find f).map (·.name)).getD [], fun f => ((declTable.find f).map (·.exported)).getD false,
    fun f => (declTable.find f).bind (·.recv), fun f => (declTable.find f).bind (·.doc), fun t => has implCauseTable t,
    fun f => ((declTable.find f).map (·.pos)).getD 0⟩
  types := ⟨fun f => (((declTable.find f).bind (·.recv)).bind typeTable.find).getD (.other 0),
    fun f => ((declTable.find f).map (·.recvNames)).getD [], fun o => (interfaceTable.find o).isSome,
    fun o => (methodNameTable.find o).getD []⟩
  funcs := [0, 1, 2, 3, 4, 5, 6, 7, 8, 9]
  specs := [⟨12603, .named 1209, some []⟩, ⟨12627, .named 1211, some [[s4]]⟩, ⟨12719, .named 1217, some [[s4]]⟩]
  ifaces := []
  methodObj := fun n => (methodObjTable.find n).getD 0
  conv := ⟨fun o => (underlyingTable.find o).getD (.other 0), fun n => ((sigTable.find n).map (·.1)).getD [],
    fun n => ((sigTable.find n).map (·.2.1)).getD false, fun n => (tupleTable.find n).getD [], fun n => (structTable.find n).getD [],
    fun t n => ((implTable.find n).map fun tr => has tr t).getD false⟩
  top := [
    .func 0,
    .func 1,
    .node (.other 12603 [.other 12602 [.ident ⟨12599, s18, (some 3)⟩, .other 12601 [.other 12600 []]]]),
    .func 2,
    .node (.other 12627 [.other 12626 [.ident ⟨12620, s9, (some 1)⟩, .other 12625 [.other 12624 [.other 12623 [.ident ⟨12621, s4, (some 4)⟩, .ident
  ⟨12622, s19, none⟩]]]]]),
    .func 3,
    .func 4,
    .func 5,
    .func 6,
    .func 7,
    .node (.other 12719 [.other 12718 [.ident ⟨12712, s20, (some 10)⟩, .other 12717 [.other 12716 [.other 12715 [.ident ⟨12713, s4, (some 11)⟩,
  .ident ⟨12714, s19, none⟩]]]]]),
    .func 8,
    .func 9]
/-- The run, in one order. -/
def result : Except Stop Outcome := runVerify package Check.source true
/-- What is expected.  The comments in the package say (with facts as `object: fact`):
```
inner1.go:8: ExportedFunc1: ErrorCodes: hello-error
inner1.go:12: function "CodeNotDeclared" is exported, but does not declare any error codes
inner1.go:18: function "CodeNotDeclared" is exported, but does not declare any error codes
inner1.go:22: Error: ErrorType{Field:{Name:"TheCode", Position:0}, Codes:}
inner1.go:32: UnusedError: ErrorType{Field:{Name:"TheCode", Position:0}, Codes:}
``` -/
def expected : Check.Expected where
  tags := []
  ifaces := []
  signatures := []
  claims := [{ at_ := 12598, msg := Serum.ClaimMsg.exportedUndeclared b!"CodeNotDeclared" },
    { at_ := 12619, msg := Serum.ClaimMsg.exportedUndeclared b!"CodeNotDeclared" }]
  bodies := []
  mismatches := []
  conversions := []
  codes := [(1207, [b!"hello-error"])]
  ctors := []
  errorTypes := [(1211, { codes := [], field := some { name := b!"TheCode", position := 0 } }),
    (1217, { codes := [], field := some { name := b!"TheCode", position := 0 } })]
  interfaces := []
  objects := 1385

/-- What functions call, and which literals they visit. -/
def graph : Check.Graph :=
  [([], []), ([], []), ([], []), ([], []), ([], []), ([], []), ([], []), ([4], []), ([], []), ([], [])]

theorem checked : Check.run package true expected graph = true := by decide +kernel

theorem imports : Check.Tables package.env.facts := tables_noFacts

theorem exported : Check.Tables (Check.factsOf result) := Check.tables checked imports

/-- The facts known before a run: those exported by some run over the imported packages. -/
def Imported (F : Facts) : Prop :=
  F = noFacts

/-- The facts known after a run. -/
def Exports (F : Facts) : Prop := Check.Exports package Imported true F

theorem imports_same (F : Facts) (h : Imported F) : Props.Run.SameFacts package.env.facts F := by
  obtain rfl := h
  exact (.refl _)

theorem exports_same {F : Facts} (h : Exports F) : Props.Run.SameFacts (Check.factsOf result) F :=
  Check.exports_same checked imports imports_same h

/-- **C54**: every run over the package has the expected result. -/
theorem always : Check.Always package Imported true expected :=
  Check.always checked imports imports_same

/-- For the nodes with diagnostics: file, line, and type of node. -/
def nodes : Tree (GoString × Nat × GoString) :=
  (.node (.node Tree.nil 12598 ((b!"inner1.go", 12, b!"FuncDecl")) Tree.nil) 12619 ((b!"inner1.go", 18, b!"FuncDecl")) Tree.nil)

/-- The names of the objects named in diagnostics other than by identifiers. -/
def objectNames : Tree GoString :=
  Tree.nil

def names : Names where
  object := fun o => (objectNames.find o).getD []
  kind := fun n => ((nodes.find n).map fun p => p.2.2).getD []

def place (n : NodeId) : GoString × Nat := ((nodes.find n).map fun p => (p.1, p.2.1)).getD ([], 0)

/-- What is printed: file, line and text. -/
def lines : List Check.Line := [(b!"inner1.go", 12, b!"function \"CodeNotDeclared\" is exported, but does not declare any error codes"),
    (b!"inner1.go", 18, b!"function \"CodeNotDeclared\" is exported, but does not declare any error codes")]

/-- **C54**: for every run over the package, these lines are printed. -/
theorem prints : Check.Prints package Imported true names place lines :=
  Check.prints always (by decide +kernel)

end Serum.Testdata.multipackageInner1
