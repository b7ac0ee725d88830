import Verif.Testdata.Support

/-!
# C54: the package analysis/testdata/src/func_literal/inner

Generated by `scripts/conformance/testdata.py` from inner.go.  Numbers of syntax nodes, objects and types are arbitrary.  The tables hold
what `go/parser` and `go/types` say about the package.
-/

set_option maxRecDepth 100000
set_option linter.all false

namespace Serum.Testdata.funcLiteralInner
open Serum Serum.Testdata

def s0 : GoString := b!"NamedFunction"
def s1 : GoString := b!"Code"
def s2 : GoString := b!"e"
def s3 : GoString := b!"TheCode"
def s4 : GoString := b!"Message"
def s5 : GoString := b!"Details"
def s6 : GoString := b!"nil"
def s7 : GoString := b!"Cause"
def s8 : GoString := b!"Error"
def s9 : GoString := b!"function-2-error"
def s10 : GoString := b!"// Errors:"
def s11 : GoString := b!"//"
def s12 : GoString := b!"//    - function-2-error --"
def s13 : GoString := b!"string"
/-- inner.go:6: `func NamedFunction` -/
def f0 : FuncDef := ⟨7590, some ⟨7578, s0, (some 0)⟩, ⟨[], (some [⟨[], 7580⟩]), 78⟩, some [.ret 7588 [.unary 7587 true (.compositeLit 7586
  [.basicLit 7585])]], 84, 122⟩
/-- inner.go:14: `func Code` -/
def f1 : FuncDef := ⟨7615, some ⟨7604, s1, none⟩, ⟨[], (some [⟨[], 7606⟩]), 256⟩, some [.ret 7613 [.selector 7612 (.ident ⟨7610, s2, (some 3)⟩)
  ⟨7611, s3, none⟩]], 277, 297⟩
/-- inner.go:15: `func Message` -/
def f2 : FuncDef := ⟨7632, some ⟨7621, s4, none⟩, ⟨[], (some [⟨[], 7623⟩]), 324⟩, some [.ret 7630 [.selector 7629 (.ident ⟨7627, s2, (some 4)⟩)
  ⟨7628, s3, none⟩]], 342, 362⟩
/-- inner.go:16: `func Details` -/
def f3 : FuncDef := ⟨7649, some ⟨7638, s5, none⟩, ⟨[], (some [⟨[], 7642⟩]), 389⟩, some [.ret 7647 [.ident ⟨7646, s6, none⟩]], 407, 421⟩
/-- inner.go:17: `func Cause` -/
def f4 : FuncDef := ⟨7664, some ⟨7655, s7, none⟩, ⟨[], (some [⟨[], 7657⟩]), 446⟩, some [.ret 7662 [.ident ⟨7661, s6, none⟩]], 466, 480⟩
/-- inner.go:18: `func Error` -/
def f5 : FuncDef := ⟨7682, some ⟨7670, s8, none⟩, ⟨[], (some [⟨[], 7672⟩]), 505⟩, some [.ret 7680 [.call 7679 (.selector 7678 (.ident ⟨7676, s2,
  (some 7)⟩) ⟨7677, s4, none⟩) []]], 525, 547⟩
/-- The objects of go/ast, in the order of their numbers. -/
def objects : List ObjInfo := [
  ⟨.fun_, 62, (.funcDecl 0)⟩,
  ⟨.typ, 129, .typeSpec⟩,
  ⟨.var, 215, .other⟩,
  ⟨.var, 239, .other⟩,
  ⟨.var, 304, .other⟩,
  ⟨.var, 369, .other⟩,
  ⟨.var, 428, .other⟩,
  ⟨.var, 487, .other⟩]
/-- Types of expressions (`Info.Types`, `Info.Defs`, `Info.Uses`). -/
def typeTable : Tree GoType := (.node (.node (.node (.node (.node (.node Tree.nil 7578 (.signature 6) Tree.nil) 7580 (.named 19) (.node Tree.nil
  7583 (.signature 6) Tree.nil)) 7584 (.named 713) (.node (.node Tree.nil 7585 (.string) Tree.nil) 7586 (.named 713) Tree.nil)) 7587 (.pointer
  (.named 713)) (.node (.node (.node Tree.nil 7591 (.named 713) Tree.nil) 7592 (.string) (.node Tree.nil 7593 (.string) Tree.nil)) 7596 (.struct 1)
  (.node (.node Tree.nil 7599 (.pointer (.named 713)) Tree.nil) 7600 (.named 713) Tree.nil))) 7601 (.pointer (.named 713)) (.node (.node (.node
  (.node Tree.nil 7604 (.signature 11) Tree.nil) 7606 (.string) (.node Tree.nil 7609 (.signature 11) Tree.nil)) 7610 (.pointer (.named 713)) (.node
  (.node Tree.nil 7611 (.string) Tree.nil) 7612 (.string) Tree.nil)) 7616 (.pointer (.named 713)) (.node (.node (.node Tree.nil 7617 (.named 713)
  Tree.nil) 7618 (.pointer (.named 713)) (.node Tree.nil 7621 (.signature 11) Tree.nil)) 7623 (.string) (.node (.node Tree.nil 7626 (.signature 11)
  Tree.nil) 7627 (.pointer (.named 713)) Tree.nil)))) 7628 (.string) (.node (.node (.node (.node (.node Tree.nil 7629 (.string) Tree.nil) 7633
  (.pointer (.named 713)) (.node Tree.nil 7634 (.named 713) Tree.nil)) 7635 (.pointer (.named 713)) (.node (.node Tree.nil 7638 (.signature 23)
  Tree.nil) 7640 (.string) Tree.nil)) 7641 (.string) (.node (.node (.node Tree.nil 7642 (.map (.string) (.string)) Tree.nil) 7645 (.signature 23)
  (.node Tree.nil 7646 (.untypedNil) Tree.nil)) 7650 (.pointer (.named 713)) (.node (.node Tree.nil 7651 (.named 713) Tree.nil) 7652 (.pointer
  (.named 713)) Tree.nil))) 7655 (.signature 6) (.node (.node (.node (.node Tree.nil 7657 (.named 19) Tree.nil) 7660 (.signature 6) (.node Tree.nil
  7661 (.untypedNil) Tree.nil)) 7665 (.pointer (.named 713)) (.node (.node Tree.nil 7666 (.named 713) Tree.nil) 7667 (.pointer (.named 713))
  Tree.nil)) 7670 (.signature 11) (.node (.node (.node Tree.nil 7672 (.string) Tree.nil) 7675 (.signature 11) (.node Tree.nil 7676 (.pointer (.named
  713)) Tree.nil)) 7677 (.signature 11) (.node (.node Tree.nil 7678 (.signature 11) Tree.nil) 7679 (.string) Tree.nil)))))
/-- Constant values of expressions. -/
def valueTable : Tree Const := (.node Tree.nil 7585 (.str s9) Tree.nil)
/-- `typeutil.Callee` of call expressions. -/
def calleeTable : Tree Nat := (.node Tree.nil 7679 (715) Tree.nil)
/-- `Info.Uses`. -/
def usesTable : Tree Nat := (.node (.node (.node (.node (.node Tree.nil 7580 (19) Tree.nil) 7584 (713) Tree.nil) 7593 (16) (.node (.node Tree.nil
  7600 (713) Tree.nil) 7606 (16) Tree.nil)) 7610 (720) (.node (.node (.node Tree.nil 7611 (105) Tree.nil) 7617 (713) Tree.nil) 7623 (16) (.node
  (.node Tree.nil 7627 (721) Tree.nil) 7628 (105) Tree.nil))) 7634 (713) (.node (.node (.node (.node Tree.nil 7640 (16) Tree.nil) 7641 (16)
  Tree.nil) 7646 (23) (.node (.node Tree.nil 7651 (713) Tree.nil) 7657 (19) Tree.nil)) 7661 (23) (.node (.node (.node Tree.nil 7666 (713) Tree.nil)
  7672 (16) Tree.nil) 7676 (724) (.node Tree.nil 7677 (715) Tree.nil))))
/-- `Info.Selections`. -/
def selectionTable : Tree (GoType × Nat) := (.node (.node Tree.nil 7612 ((.pointer (.named 713), 105)) Tree.nil) 7629 ((.pointer (.named 713), 105))
  (.node Tree.nil 7678 ((.pointer (.named 713), 715)) Tree.nil))
/-- Identifiers that are names of imported packages. -/
def pkgNameTable : Tree GoString := Tree.nil
/-- Method sets. -/
def methodSetTable : Tree (List (GoString × Nat)) := (.node (.node Tree.nil 27 ([(s8, 1386)]) Tree.nil) 95 ([(s8, 20)]) (.node Tree.nil 3566 ([(s7,
  717), (s1, 714), (s5, 716), (s8, 718), (s4, 715)]) Tree.nil))
/-- Types implementing `error`. -/
def implErrorTable : Tree Unit := (.node (.node Tree.nil 27 (()) Tree.nil) 95 (()) (.node Tree.nil 3566 (()) Tree.nil))
/-- Types implementing `error` with a code. -/
def implCodeTable : Tree Unit := (.node Tree.nil 3566 (()) Tree.nil)
/-- Types implementing `error` with a cause. -/
def implCauseTable : Tree Unit := (.node Tree.nil 3566 (()) Tree.nil)
/-- Signatures: types of parameters, variadic, number of results. -/
def sigTable : Tree (List GoType × Bool × Nat) := (.node (.node Tree.nil 6 (([], false, 1)) Tree.nil) 11 (([], false, 1)) (.node Tree.nil 23 (([],
  false, 1)) Tree.nil))
/-- Tuples of results. -/
def tupleTable : Tree (List GoType) := Tree.nil
/-- Fields of structs. -/
def structTable : Tree (List (GoString × GoType)) := (.node Tree.nil 1 ([(s3, .string)]) Tree.nil)
/-- Underlying types of named types. -/
def underlyingTable : Tree GoType := (.node (.node Tree.nil 19 (.interface 5) Tree.nil) 713 (.struct 1) Tree.nil)
/-- Which types implement which interfaces. -/
def implTable : Tree (Tree Unit) := (.node Tree.nil 5 ((.node (.node Tree.nil 27 (()) Tree.nil) 95 (()) (.node Tree.nil 3566 (()) Tree.nil)))
  Tree.nil)
/-- Comments at return statements (`ast.NewCommentMap`). -/
def commentTable : Tree (List (List GoString)) := Tree.nil
/-- Function declarations. -/
def declTable : Tree DeclInfo := (.node (.node (.node Tree.nil 0 (⟨s0, true, none, some (CommentText.text [s10, s11, s12]), 7590, 712, []⟩)
  Tree.nil) 1 (⟨s1, true, some 7601, none, 7615, 714, [⟨7599, s2, (some 3)⟩]⟩) (.node Tree.nil 2 (⟨s4, true, some 7618, none, 7632, 715, [⟨7616, s2,
  (some 4)⟩]⟩) Tree.nil)) 3 (⟨s5, true, some 7635, none, 7649, 716, [⟨7633, s2, (some 5)⟩]⟩) (.node (.node Tree.nil 4 (⟨s7, true, some 7652, none,
  7664, 717, [⟨7650, s2, (some 6)⟩]⟩) Tree.nil) 5 (⟨s8, true, some 7667, none, 7682, 718, [⟨7665, s2, (some 7)⟩]⟩) Tree.nil))
/-- Named interfaces. -/
def interfaceTable : Tree Unit := (.node Tree.nil 19 (()) Tree.nil)
/-- Methods of named types. -/
def methodNameTable : Tree (List GoString) := (.node Tree.nil 713 ([s1, s4, s5, s7, s8]) Tree.nil)
/-- Objects of interface methods. -/
def methodObjTable : Tree Nat := Tree.nil
/-- Syntax and types of the package, and the facts exported by the packages it imports. -/
def env : Env where
  funcs := [f0, f1, f2, f3, f4, f5]
  objects := objects
  typeOf := fun n => (typeTable.find n).getD (.other 0)
  value := valueTable.find
  callee := calleeTable.find
  uses := usesTable.find
  selection := selectionTable.find
  pkgName := pkgNameTable.find
  funcObj := fun f => ((declTable.find f).map (·.obj)).getD 0
  implError := fun t => has implErrorTable t
  implCode := fun t => has implCodeTable t
  sigResults := fun n => ((sigTable.find n).map (·.2.2)).getD 0
  methodSet := fun t name => ((typeKey t).bind methodSetTable.find).bind fun l => lookup name l
  functions := fun _ => none
  methods := fun _ => []
  comments := fun n => ((commentTable.find n).getD []).map CommentText.text
  isPrint := fun r => 32 ≤ r && r < 127
  facts := noFacts
/-- The package. -/
def package : Package where
  env := env
  decls := ⟨fun f => ((declTable.find f).map (·.name)).getD [], fun f => ((declTable.find f).map (·.exported)).getD false,
    fun f => (declTable.find f).bind (·.recv), fun f => (declTable.find f).bind (·.doc), fun t => has implCauseTable t,
    fun f => ((declTable.find f).map (·.pos)).getD 0⟩
  types := ⟨fun f => (((declTable.find f).bind (·.recv)).bind typeTable.find).getD (.other 0),
    fun f => ((declTable.find f).map (·.recvNames)).getD [], fun o => (interfaceTable.find o).isSome,
    fun o => (methodNameTable.find o).getD []⟩
  funcs := [0, 1, 2, 3, 4, 5]
  specs := [⟨7598, .named 713, some [[s3]]⟩]
  ifaces := []
  methodObj := fun n => (methodObjTable.find n).getD 0
  conv := ⟨fun o => (underlyingTable.find o).getD (.other 0), fun n => ((sigTable.find n).map (·.1)).getD [],
    fun n => ((sigTable.find n).map (·.2.1)).getD false, fun n => (tupleTable.find n).getD [], fun n => (structTable.find n).getD [],
    fun t n => ((implTable.find n).map fun tr => has tr t).getD false⟩
  top := [
    .func 0,
    .node (.other 7598 [.other 7597 [.ident ⟨7591, s8, (some 1)⟩, .other 7596 [.other 7595 [.other 7594 [.ident ⟨7592, s3, (some 2)⟩, .ident ⟨7593,
  s13, none⟩]]]]]),
    .func 1,
    .func 2,
    .func 3,
    .func 4,
    .func 5]
/-- The run, in one order. -/
def result : Except Stop Outcome := runVerify package Check.source true
/-- What is expected.  The comments in the package say (with facts as `object: fact`):
```
inner.go:10: Error: ErrorType{Field:{Name:"TheCode", Position:0}, Codes:}
``` -/
def expected : Check.Expected where
  tags := []
  ifaces := []
  signatures := []
  claims := []
  bodies := []
  mismatches := []
  conversions := []
  codes := [(712, [b!"function-2-error"])]
  ctors := []
  errorTypes := [(713, { codes := [], field := some { name := b!"TheCode", position := 0 } })]
  interfaces := []
  objects := 1385

/-- What functions call, and which literals they visit. -/
def graph : Check.Graph :=
  [([], []), ([], []), ([], []), ([], []), ([], []), ([2], [])]

theorem checked : Check.run package true expected graph = true := by decide +kernel

theorem imports : Check.Tables package.env.facts := tables_noFacts

theorem exported : Check.Tables (Check.factsOf result) := Check.tables checked imports

/-- The facts known before a run: those exported by some run over the imported packages. -/
def Imported (F : Facts) : Prop :=
  F = noFacts

/-- The facts known after a run. -/
def Exports (F : Facts) : Prop := Check.Exports package Imported true F

theorem imports_same (F : Facts) (h : Imported F) : Props.Run.SameFacts package.env.facts F := by
  obtain rfl := h
  exact (.refl _)

theorem exports_same {F : Facts} (h : Exports F) : Props.Run.SameFacts (Check.factsOf result) F :=
  Check.exports_same checked imports imports_same h

/-- **C54**: every run over the package has the expected result. -/
theorem always : Check.Always package Imported true expected :=
  Check.always checked imports imports_same

/-- For the nodes with diagnostics: file, line, and type of node. -/
def nodes : Tree (GoString × Nat × GoString) :=
  Tree.nil

/-- The names of the objects named in diagnostics other than by identifiers. -/
def objectNames : Tree GoString :=
  Tree.nil

def names : Names where
  object := fun o => (objectNames.find o).getD []
  kind := fun n => ((nodes.find n).map fun p => p.2.2).getD []

def place (n : NodeId) : GoString × Nat := ((nodes.find n).map fun p => (p.1, p.2.1)).getD ([], 0)

/-- What is printed: file, line and text. -/
def lines : List Check.Line := []

/-- **C54**: for every run over the package, these lines are printed. -/
theorem prints : Check.Prints package Imported true names place lines :=
  Check.prints always (by decide +kernel)

end Serum.Testdata.funcLiteralInner
