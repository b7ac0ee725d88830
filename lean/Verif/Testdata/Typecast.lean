import Verif.Testdata.Support

/-!
# C54: the package analysis/testdata/src/typecast

Generated by `scripts/conformance/testdata.py` from cast.go, type.go.  Numbers of syntax nodes, objects and types are arbitrary.  The tables hold
what `go/parser` and `go/types` say about the package.
-/

set_option maxRecDepth 100000
set_option linter.all false

namespace Serum.Testdata.typecast
open Serum Serum.Testdata

def s0 : GoString := b!"TypeCast"
def s1 : GoString := b!"StringError"
def s2 : GoString := b!"Code"
def s3 : GoString := b!"Error"
def s4 : GoString := b!"Message"
def s5 : GoString := b!"string"
def s6 : GoString := b!"s"
def s7 : GoString := b!"some message about the error"
def s8 : GoString := b!"string-error"
def s9 : GoString := b!"// want TypeCast:\"ErrorCodes: string-error\""
def s10 : GoString := b!"// Errors:"
def s11 : GoString := b!"//"
def s12 : GoString := b!"//    - string-error --"
/-- cast.go:6: `func TypeCast` -/
def f0 : FuncDef := ⟨13898, some ⟨13887, s0, (some 0)⟩, ⟨[], (some [⟨[], 13889⟩]), 72⟩, some [.ret 13896 [.call 13895 (.ident ⟨13893, s1, none⟩)
  [.basicLit 13894]]], 78, 177⟩
/-- type.go:5: `func Code` -/
def f1 : FuncDef := ⟨13918, some ⟨13909, s2, none⟩, ⟨[], (some [⟨[], 13911⟩]), 322⟩, some [.ret 13916 [.basicLit 13915]], 334, 359⟩
/-- type.go:6: `func Error` -/
def f2 : FuncDef := ⟨13931, some ⟨13922, s3, none⟩, ⟨[], (some [⟨[], 13924⟩]), 387⟩, some [.ret 13929 [.basicLit 13928]], 398, 422⟩
/-- type.go:7: `func Message` -/
def f3 : FuncDef := ⟨13947, some ⟨13936, s4, none⟩, ⟨[], (some [⟨[], 13938⟩]), 454⟩, some [.ret 13945 [.call 13944 (.ident ⟨13942, s5, none⟩)
  [.ident ⟨13943, s6, (some 2)⟩]]], 461, 481⟩
/-- The objects of go/ast, in the order of their numbers. -/
def objects : List ObjInfo := [
  ⟨.fun_, 61, (.funcDecl 0)⟩,
  ⟨.typ, 211, .typeSpec⟩,
  ⟨.var, 429, .other⟩]
/-- Types of expressions (`Info.Types`, `Info.Defs`, `Info.Uses`). -/
def typeTable : Tree GoType := (.node (.node (.node (.node (.node Tree.nil 13887 (.signature 6) Tree.nil) 13889 (.named 19) (.node Tree.nil 13892
  (.signature 6) Tree.nil)) 13893 (.named 1319) (.node (.node Tree.nil 13894 (.named 1319) Tree.nil) 13895 (.named 1319) Tree.nil)) 13902 (.named
  1319) (.node (.node (.node Tree.nil 13903 (.string) Tree.nil) 13906 (.named 1319) (.node Tree.nil 13909 (.signature 11) Tree.nil)) 13911 (.string)
  (.node (.node Tree.nil 13914 (.signature 11) Tree.nil) 13915 (.string) Tree.nil))) 13919 (.named 1319) (.node (.node (.node (.node Tree.nil 13922
  (.signature 11) Tree.nil) 13924 (.string) (.node Tree.nil 13927 (.signature 11) Tree.nil)) 13928 (.string) (.node (.node Tree.nil 13932 (.named
  1319) Tree.nil) 13933 (.named 1319) Tree.nil)) 13936 (.signature 11) (.node (.node (.node Tree.nil 13938 (.string) Tree.nil) 13941 (.signature 11)
  Tree.nil) 13942 (.string) (.node (.node Tree.nil 13943 (.named 1319) Tree.nil) 13944 (.string) Tree.nil))))
/-- Constant values of expressions. -/
def valueTable : Tree Const := (.node (.node (.node Tree.nil 13894 (.str s7) Tree.nil) 13895 (.str s7) Tree.nil) 13915 (.str s8) (.node Tree.nil
  13928 (.str s1) Tree.nil))
/-- `typeutil.Callee` of call expressions. -/
def calleeTable : Tree Nat := Tree.nil
/-- `Info.Uses`. -/
def usesTable : Tree Nat := (.node (.node (.node (.node Tree.nil 13889 (19) Tree.nil) 13893 (1319) Tree.nil) 13903 (16) (.node (.node Tree.nil 13906
  (1319) Tree.nil) 13911 (16) Tree.nil)) 13919 (1319) (.node (.node (.node Tree.nil 13924 (16) Tree.nil) 13933 (1319) Tree.nil) 13938 (16) (.node
  (.node Tree.nil 13942 (16) Tree.nil) 13943 (1323) Tree.nil)))
/-- `Info.Selections`. -/
def selectionTable : Tree (GoType × Nat) := Tree.nil
/-- Identifiers that are names of imported packages. -/
def pkgNameTable : Tree GoString := Tree.nil
/-- Method sets. -/
def methodSetTable : Tree (List (GoString × Nat)) := (.node (.node (.node Tree.nil 27 ([(s3, 1386)]) Tree.nil) 95 ([(s3, 20)]) Tree.nil) 6595 ([(s2,
  1320), (s3, 1321), (s4, 1322)]) (.node Tree.nil 6596 ([(s2, 1320), (s3, 1321), (s4, 1322)]) Tree.nil))
/-- Types implementing `error`. -/
def implErrorTable : Tree Unit := (.node (.node (.node Tree.nil 27 (()) Tree.nil) 95 (()) Tree.nil) 6595 (()) (.node Tree.nil 6596 (()) Tree.nil))
/-- Types implementing `error` with a code. -/
def implCodeTable : Tree Unit := (.node (.node Tree.nil 6595 (()) Tree.nil) 6596 (()) Tree.nil)
/-- Types implementing `error` with a cause. -/
def implCauseTable : Tree Unit := Tree.nil
/-- Signatures: types of parameters, variadic, number of results. -/
def sigTable : Tree (List GoType × Bool × Nat) := (.node (.node Tree.nil 6 (([], false, 1)) Tree.nil) 11 (([], false, 1)) Tree.nil)
/-- Tuples of results. -/
def tupleTable : Tree (List GoType) := Tree.nil
/-- Fields of structs. -/
def structTable : Tree (List (GoString × GoType)) := Tree.nil
/-- Underlying types of named types. -/
def underlyingTable : Tree GoType := (.node (.node Tree.nil 19 (.interface 5) Tree.nil) 1319 (.string) Tree.nil)
/-- Which types implement which interfaces. -/
def implTable : Tree (Tree Unit) := (.node Tree.nil 5 ((.node (.node (.node Tree.nil 27 (()) Tree.nil) 95 (()) Tree.nil) 6595 (()) (.node Tree.nil
  6596 (()) Tree.nil))) Tree.nil)
/-- Comments at return statements (`ast.NewCommentMap`). -/
def commentTable : Tree (List (List GoString)) := (.node Tree.nil 13896 ([[s9]]) Tree.nil)
/-- Function declarations. -/
def declTable : Tree DeclInfo := (.node (.node (.node Tree.nil 0 (⟨s0, true, none, some (CommentText.text [s10, s11, s12]), 13898, 1318, []⟩)
  Tree.nil) 1 (⟨s2, true, some 13906, none, 13918, 1320, []⟩) Tree.nil) 2 (⟨s3, true, some 13919, none, 13931, 1321, []⟩) (.node Tree.nil 3 (⟨s4,
  true, some 13933, none, 13947, 1322, [⟨13932, s6, (some 2)⟩]⟩) Tree.nil))
/-- Named interfaces. -/
def interfaceTable : Tree Unit := (.node Tree.nil 19 (()) Tree.nil)
/-- Methods of named types. -/
def methodNameTable : Tree (List GoString) := (.node Tree.nil 1319 ([s2, s3, s4]) Tree.nil)
/-- Objects of interface methods. -/
def methodObjTable : Tree Nat := Tree.nil
/-- Syntax and types of the package, and the facts exported by the packages it imports. -/
def env : Env where
  funcs := [f0, f1, f2, f3]
  objects := objects
  typeOf := fun n => (typeTable.find n).getD (.other 0)
  value := valueTable.find
  callee := calleeTable.find
  uses := usesTable.find
  selection := selectionTable.find
  pkgName := pkgNameTable.find
  funcObj := fun f => ((declTable.find f).map (·.obj)).getD 0
  implError := fun t => has implErrorTable t
  implCode := fun t => has implCodeTable t
  sigResults := fun n => ((sigTable.find n).map (·.2.2)).getD 0
  methodSet := fun t name => ((typeKey t).bind methodSetTable.find).bind fun l => lookup name l
  functions := fun _ => none
  methods := fun _ => []
  comments := fun n => ((commentTable.find n).getD []).map CommentText.text
  isPrint := fun r => 32 ≤ r && r < 127
  facts := noFacts
/-- The package. -/
def package : Package where
  env := env
  decls := ⟨fun f => ((declTable.find f).map (·.name)).getD [], fun f => ((declTable.find f).map (·.exported)).getD false,
    fun f => (declTable.find f).bind (·.recv), fun f => (declTable.find f).bind (·.doc), fun t => has implCauseTable t,
    fun f => ((declTable.find f).map (·.pos)).getD 0⟩
  types := ⟨fun f => (((declTable.find f).bind (·.recv)).bind typeTable.find).getD (.other 0),
    fun f => ((declTable.find f).map (·.recvNames)).getD [], fun o => (interfaceTable.find o).isSome,
    fun o => (methodNameTable.find o).getD []⟩
  funcs := [0, 1, 2, 3]
  specs := [⟨13905, .named 1319, none⟩]
  ifaces := []
  methodObj := fun n => (methodObjTable.find n).getD 0
  conv := ⟨fun o => (underlyingTable.find o).getD (.other 0), fun n => ((sigTable.find n).map (·.1)).getD [],
    fun n => ((sigTable.find n).map (·.2.1)).getD false, fun n => (tupleTable.find n).getD [], fun n => (structTable.find n).getD [],
    fun t n => ((implTable.find n).map fun tr => has tr t).getD false⟩
  top := [
    .func 0,
    .node (.other 13905 [.other 13904 [.ident ⟨13902, s1, (some 1)⟩, .ident ⟨13903, s5, none⟩]]),
    .func 1,
    .func 2,
    .func 3]
/-- The run, in one order. -/
def result : Except Stop Outcome := runVerify package Check.source true
/-- What is expected.  The comments in the package say (with facts as `object: fact`):
```
cast.go:6: TypeCast: ErrorCodes: string-error
type.go:3: StringError: ErrorType{Field:<nil>, Codes:string-error}
``` -/
def expected : Check.Expected where
  tags := []
  ifaces := []
  signatures := []
  claims := []
  bodies := []
  mismatches := []
  conversions := []
  codes := [(1318, [b!"string-error"])]
  ctors := []
  errorTypes := [(1319, { codes := [b!"string-error"], field := none })]
  interfaces := []
  objects := 1385

/-- What functions call, and which literals they visit. -/
def graph : Check.Graph :=
  [([], []), ([], []), ([], []), ([], [])]

theorem checked : Check.run package true expected graph = true := by decide +kernel

theorem imports : Check.Tables package.env.facts := tables_noFacts

theorem exported : Check.Tables (Check.factsOf result) := Check.tables checked imports

/-- The facts known before a run: those exported by some run over the imported packages. -/
def Imported (F : Facts) : Prop :=
  F = noFacts

/-- The facts known after a run. -/
def Exports (F : Facts) : Prop := Check.Exports package Imported true F

theorem imports_same (F : Facts) (h : Imported F) : Props.Run.SameFacts package.env.facts F := by
  obtain rfl := h
  exact (.refl _)

theorem exports_same {F : Facts} (h : Exports F) : Props.Run.SameFacts (Check.factsOf result) F :=
  Check.exports_same checked imports imports_same h

/-- **C54**: every run over the package has the expected result. -/
theorem always : Check.Always package Imported true expected :=
  Check.always checked imports imports_same

/-- For the nodes with diagnostics: file, line, and type of node. -/
def nodes : Tree (GoString × Nat × GoString) :=
  Tree.nil

/-- The names of the objects named in diagnostics other than by identifiers. -/
def objectNames : Tree GoString :=
  Tree.nil

def names : Names where
  object := fun o => (objectNames.find o).getD []
  kind := fun n => ((nodes.find n).map fun p => p.2.2).getD []

def place (n : NodeId) : GoString × Nat := ((nodes.find n).map fun p => (p.1, p.2.1)).getD ([], 0)

/-- What is printed: file, line and text. -/
def lines : List Check.Line := []

/-- **C54**: for every run over the package, these lines are printed. -/
theorem prints : Check.Prints package Imported true names place lines :=
  Check.prints always (by decide +kernel)

end Serum.Testdata.typecast
