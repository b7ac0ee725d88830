import Verif.Testdata.Support

/-!
# C54: the package analysis/testdata/src/multifile

Generated by `scripts/conformance/testdata.py` from file1.go, file2.go.  Numbers of syntax nodes, objects and types are arbitrary.  The tables hold
what `go/parser` and `go/types` say about the package.
-/

set_option maxRecDepth 100000
set_option linter.all false

namespace Serum.Testdata.multifile
open Serum Serum.Testdata

def s0 : GoString := b!"Func1"
def s1 : GoString := b!"false"
def s2 : GoString := b!"Func2"
def s3 : GoString := b!"GlobalFromOtherFile"
def s4 : GoString := b!"true"
def s5 : GoString := b!"globalError"
def s6 : GoString := b!"Code"
def s7 : GoString := b!"e"
def s8 : GoString := b!"TheCode"
def s9 : GoString := b!"Message"
def s10 : GoString := b!"Details"
def s11 : GoString := b!"nil"
def s12 : GoString := b!"Cause"
def s13 : GoString := b!"Error"
def s14 : GoString := b!"func1-error"
def s15 : GoString := b!"local-error"
def s16 : GoString := b!"func2-error"
def s17 : GoString := b!"// want \"returned error may not be a parameter, receiver or global variable\""
def s18 : GoString := b!"// want Func2:\"ErrorCodes: func2-error\""
def s19 : GoString := b!"// Errors:"
def s20 : GoString := b!"//"
def s21 : GoString := b!"//    - func1-error --"
def s22 : GoString := b!"//    - func2-error --"
def s23 : GoString := b!"//    - local-error --"
def s24 : GoString := b!"string"
/-- file1.go:7: `func Func1` -/
def f0 : FuncDef := ⟨12432, some ⟨12413, s0, (some 0)⟩, ⟨[], (some [⟨[], 12415⟩]), 92⟩, some [.other 12425 [.ident ⟨12419, s1, none⟩, .other 12424
  [.ret 12423 [.call 12422 (.ident ⟨12421, s2, none⟩) []]]], .ret 12430 [.unary 12429 true (.compositeLit 12428 [.basicLit 12427])]], 98, 215⟩
/-- file1.go:17: `func GlobalFromOtherFile` -/
def f1 : FuncDef := ⟨12451, some ⟨12433, s3, (some 2)⟩, ⟨[], (some [⟨[], 12435⟩]), 281⟩, some [.other 12444 [.ident ⟨12439, s4, none⟩, .other 12443
  [.ret 12442 [.ident ⟨12441, s5, none⟩]]], .ret 12449 [.unary 12448 true (.compositeLit 12447 [.basicLit 12446])]], 287, 486⟩
/-- file1.go:28: `func Code` -/
def f2 : FuncDef := ⟨12476, some ⟨12465, s6, none⟩, ⟨[], (some [⟨[], 12467⟩]), 620⟩, some [.ret 12474 [.selector 12473 (.ident ⟨12471, s7, (some
  4)⟩) ⟨12472, s8, none⟩]], 641, 661⟩
/-- file1.go:29: `func Message` -/
def f3 : FuncDef := ⟨12493, some ⟨12482, s9, none⟩, ⟨[], (some [⟨[], 12484⟩]), 688⟩, some [.ret 12491 [.selector 12490 (.ident ⟨12488, s7, (some
  5)⟩) ⟨12489, s8, none⟩]], 706, 726⟩
/-- file1.go:30: `func Details` -/
def f4 : FuncDef := ⟨12510, some ⟨12499, s10, none⟩, ⟨[], (some [⟨[], 12503⟩]), 753⟩, some [.ret 12508 [.ident ⟨12507, s11, none⟩]], 771, 785⟩
/-- file1.go:31: `func Cause` -/
def f5 : FuncDef := ⟨12525, some ⟨12516, s12, none⟩, ⟨[], (some [⟨[], 12518⟩]), 810⟩, some [.ret 12523 [.ident ⟨12522, s11, none⟩]], 830, 844⟩
/-- file1.go:32: `func Error` -/
def f6 : FuncDef := ⟨12543, some ⟨12531, s13, none⟩, ⟨[], (some [⟨[], 12533⟩]), 869⟩, some [.ret 12541 [.call 12540 (.selector 12539 (.ident ⟨12537,
  s7, (some 8)⟩) ⟨12538, s9, none⟩) []]], 889, 911⟩
/-- file2.go:8: `func Func2` -/
def f7 : FuncDef := ⟨12564, some ⟨12552, s2, (some 10)⟩, ⟨[], (some [⟨[], 12554⟩]), 1014⟩, some [.ret 12562 [.unary 12561 true (.compositeLit 12560
  [.basicLit 12559])]], 1020, 1093⟩
/-- The objects of go/ast, in the order of their numbers. -/
def objects : List ObjInfo := [
  ⟨.fun_, 84, (.funcDecl 0)⟩,
  ⟨.typ, 493, .typeSpec⟩,
  ⟨.fun_, 259, (.funcDecl 1)⟩,
  ⟨.var, 579, .other⟩,
  ⟨.var, 603, .other⟩,
  ⟨.var, 668, .other⟩,
  ⟨.var, 733, .other⟩,
  ⟨.var, 792, .other⟩,
  ⟨.var, 851, .other⟩,
  ⟨.var, 945, (.valueSpec [⟨12548, s5, (some 9)⟩] [])⟩,
  ⟨.fun_, 1006, (.funcDecl 7)⟩]
/-- Types of expressions (`Info.Types`, `Info.Defs`, `Info.Uses`). -/
def typeTable : Tree GoType := (.node (.node (.node (.node (.node (.node (.node Tree.nil 12413 (.signature 6) Tree.nil) 12415 (.named 19) Tree.nil)
  12418 (.signature 6) (.node Tree.nil 12419 (.other 10) Tree.nil)) 12421 (.signature 6) (.node (.node (.node Tree.nil 12422 (.named 19) Tree.nil)
  12426 (.named 1193) Tree.nil) 12427 (.string) (.node Tree.nil 12428 (.named 1193) Tree.nil))) 12429 (.pointer (.named 1193)) (.node (.node (.node
  (.node Tree.nil 12433 (.signature 6) Tree.nil) 12435 (.named 19) Tree.nil) 12438 (.signature 6) (.node Tree.nil 12439 (.other 10) Tree.nil)) 12441
  (.named 19) (.node (.node (.node Tree.nil 12445 (.named 1193) Tree.nil) 12446 (.string) Tree.nil) 12447 (.named 1193) (.node Tree.nil 12448
  (.pointer (.named 1193)) Tree.nil)))) 12452 (.named 1193) (.node (.node (.node (.node (.node Tree.nil 12453 (.string) Tree.nil) 12454 (.string)
  Tree.nil) 12457 (.struct 1) (.node Tree.nil 12460 (.pointer (.named 1193)) Tree.nil)) 12461 (.named 1193) (.node (.node (.node Tree.nil 12462
  (.pointer (.named 1193)) Tree.nil) 12465 (.signature 11) Tree.nil) 12467 (.string) (.node Tree.nil 12470 (.signature 11) Tree.nil))) 12471
  (.pointer (.named 1193)) (.node (.node (.node (.node Tree.nil 12472 (.string) Tree.nil) 12473 (.string) Tree.nil) 12477 (.pointer (.named 1193))
  (.node Tree.nil 12478 (.named 1193) Tree.nil)) 12479 (.pointer (.named 1193)) (.node (.node Tree.nil 12482 (.signature 11) Tree.nil) 12484
  (.string) (.node Tree.nil 12487 (.signature 11) Tree.nil))))) 12488 (.pointer (.named 1193)) (.node (.node (.node (.node (.node (.node Tree.nil
  12489 (.string) Tree.nil) 12490 (.string) Tree.nil) 12494 (.pointer (.named 1193)) (.node Tree.nil 12495 (.named 1193) Tree.nil)) 12496 (.pointer
  (.named 1193)) (.node (.node (.node Tree.nil 12499 (.signature 23) Tree.nil) 12501 (.string) Tree.nil) 12502 (.string) (.node Tree.nil 12503 (.map
  (.string) (.string)) Tree.nil))) 12506 (.signature 23) (.node (.node (.node (.node Tree.nil 12507 (.untypedNil) Tree.nil) 12511 (.pointer (.named
  1193)) Tree.nil) 12512 (.named 1193) (.node Tree.nil 12513 (.pointer (.named 1193)) Tree.nil)) 12516 (.signature 6) (.node (.node Tree.nil 12518
  (.named 19) Tree.nil) 12521 (.signature 6) (.node Tree.nil 12522 (.untypedNil) Tree.nil)))) 12526 (.pointer (.named 1193)) (.node (.node (.node
  (.node (.node Tree.nil 12527 (.named 1193) Tree.nil) 12528 (.pointer (.named 1193)) Tree.nil) 12531 (.signature 11) (.node Tree.nil 12533
  (.string) Tree.nil)) 12536 (.signature 11) (.node (.node (.node Tree.nil 12537 (.pointer (.named 1193)) Tree.nil) 12538 (.signature 11) Tree.nil)
  12539 (.signature 11) (.node Tree.nil 12540 (.string) Tree.nil))) 12548 (.named 19) (.node (.node (.node (.node Tree.nil 12549 (.named 19)
  Tree.nil) 12552 (.signature 6) Tree.nil) 12554 (.named 19) (.node Tree.nil 12557 (.signature 6) Tree.nil)) 12558 (.named 1193) (.node (.node
  Tree.nil 12559 (.string) Tree.nil) 12560 (.named 1193) (.node Tree.nil 12561 (.pointer (.named 1193)) Tree.nil))))))
/-- Constant values of expressions. -/
def valueTable : Tree Const := (.node (.node (.node Tree.nil 12419 (.other) Tree.nil) 12427 (.str s14) Tree.nil) 12439 (.other) (.node (.node
  Tree.nil 12446 (.str s15) Tree.nil) 12559 (.str s16) Tree.nil))
/-- `typeutil.Callee` of call expressions. -/
def calleeTable : Tree Nat := (.node (.node Tree.nil 12422 (1200) Tree.nil) 12540 (1195) Tree.nil)
/-- `Info.Uses`. -/
def usesTable : Tree Nat := (.node (.node (.node (.node (.node Tree.nil 12415 (19) Tree.nil) 12419 (22) (.node Tree.nil 12421 (1200) Tree.nil))
  12426 (1193) (.node (.node Tree.nil 12435 (19) Tree.nil) 12439 (21) (.node Tree.nil 12441 (1199) Tree.nil))) 12445 (1193) (.node (.node (.node
  Tree.nil 12454 (16) Tree.nil) 12461 (1193) (.node Tree.nil 12467 (16) Tree.nil)) 12471 (1202) (.node (.node Tree.nil 12472 (105) Tree.nil) 12478
  (1193) (.node Tree.nil 12484 (16) Tree.nil)))) 12488 (1203) (.node (.node (.node (.node Tree.nil 12489 (105) Tree.nil) 12495 (1193) (.node
  Tree.nil 12501 (16) Tree.nil)) 12502 (16) (.node (.node Tree.nil 12507 (23) Tree.nil) 12512 (1193) (.node Tree.nil 12518 (19) Tree.nil))) 12522
  (23) (.node (.node (.node Tree.nil 12527 (1193) Tree.nil) 12533 (16) (.node Tree.nil 12537 (1206) Tree.nil)) 12538 (1195) (.node (.node Tree.nil
  12549 (19) Tree.nil) 12554 (19) (.node Tree.nil 12558 (1193) Tree.nil)))))
/-- `Info.Selections`. -/
def selectionTable : Tree (GoType × Nat) := (.node (.node Tree.nil 12473 ((.pointer (.named 1193), 105)) Tree.nil) 12490 ((.pointer (.named 1193),
  105)) (.node Tree.nil 12539 ((.pointer (.named 1193), 1195)) Tree.nil))
/-- Identifiers that are names of imported packages. -/
def pkgNameTable : Tree GoString := Tree.nil
/-- Method sets. -/
def methodSetTable : Tree (List (GoString × Nat)) := (.node (.node Tree.nil 27 ([(s13, 1386)]) Tree.nil) 95 ([(s13, 20)]) (.node Tree.nil 5966
  ([(s12, 1197), (s6, 1194), (s10, 1196), (s13, 1198), (s9, 1195)]) Tree.nil))
/-- Types implementing `error`. -/
def implErrorTable : Tree Unit := (.node (.node Tree.nil 27 (()) Tree.nil) 95 (()) (.node Tree.nil 5966 (()) Tree.nil))
/-- Types implementing `error` with a code. -/
def implCodeTable : Tree Unit := (.node Tree.nil 5966 (()) Tree.nil)
/-- Types implementing `error` with a cause. -/
def implCauseTable : Tree Unit := (.node Tree.nil 5966 (()) Tree.nil)
/-- Signatures: types of parameters, variadic, number of results. -/
def sigTable : Tree (List GoType × Bool × Nat) := (.node (.node Tree.nil 6 (([], false, 1)) Tree.nil) 11 (([], false, 1)) (.node Tree.nil 23 (([],
  false, 1)) Tree.nil))
/-- Tuples of results. -/
def tupleTable : Tree (List GoType) := Tree.nil
/-- Fields of structs. -/
def structTable : Tree (List (GoString × GoType)) := (.node Tree.nil 1 ([(s8, .string)]) Tree.nil)
/-- Underlying types of named types. -/
def underlyingTable : Tree GoType := (.node (.node Tree.nil 19 (.interface 5) Tree.nil) 1193 (.struct 1) Tree.nil)
/-- Which types implement which interfaces. -/
def implTable : Tree (Tree Unit) := (.node Tree.nil 5 ((.node (.node Tree.nil 27 (()) Tree.nil) 95 (()) (.node Tree.nil 5966 (()) Tree.nil)))
  Tree.nil)
/-- Comments at return statements (`ast.NewCommentMap`). -/
def commentTable : Tree (List (List GoString)) := (.node (.node Tree.nil 12442 ([[s17]]) Tree.nil) 12562 ([[s18]]) Tree.nil)
/-- Function declarations. -/
def declTable : Tree DeclInfo := (.node (.node (.node (.node Tree.nil 0 (⟨s0, true, none, some (CommentText.text [s19, s20, s21, s22]), 12432, 1191,
  []⟩) Tree.nil) 1 (⟨s3, true, none, some (CommentText.text [s19, s20, s23]), 12451, 1192, []⟩) Tree.nil) 2 (⟨s6, true, some 12462, none, 12476,
  1194, [⟨12460, s7, (some 4)⟩]⟩) (.node Tree.nil 3 (⟨s9, true, some 12479, none, 12493, 1195, [⟨12477, s7, (some 5)⟩]⟩) Tree.nil)) 4 (⟨s10, true,
  some 12496, none, 12510, 1196, [⟨12494, s7, (some 6)⟩]⟩) (.node (.node Tree.nil 5 (⟨s12, true, some 12513, none, 12525, 1197, [⟨12511, s7, (some
  7)⟩]⟩) Tree.nil) 6 (⟨s13, true, some 12528, none, 12543, 1198, [⟨12526, s7, (some 8)⟩]⟩) (.node Tree.nil 7 (⟨s2, true, none, some
  (CommentText.text [s19, s20, s22]), 12564, 1200, []⟩) Tree.nil)))
/-- Named interfaces. -/
def interfaceTable : Tree Unit := (.node Tree.nil 19 (()) Tree.nil)
/-- Methods of named types. -/
def methodNameTable : Tree (List GoString) := (.node Tree.nil 1193 ([s6, s9, s10, s12, s13]) Tree.nil)
/-- Objects of interface methods. -/
def methodObjTable : Tree Nat := Tree.nil
/-- Syntax and types of the package, and the facts exported by the packages it imports. -/
def env : Env where
  funcs := [f0, f1, f2, f3, f4, f5, f6, f7]
  objects := objects
  typeOf := fun n => (typeTable.find n).getD (.other 0)
  value := valueTable.find
  callee := calleeTable.find
  uses := usesTable.find
  selection := selectionTable.find
  pkgName := pkgNameTable.find
  funcObj := fun f => ((declTable.find f).map (·.obj)).getD 0
  implError := fun t => has implErrorTable t
  implCode := fun t => has implCodeTable t
  sigResults := fun n => ((sigTable.find n).map (·.2.2)).getD 0
  methodSet := fun t name => ((typeKey t).bind methodSetTable.find).bind fun l => lookup name l
  functions := fun _ => none
  methods := fun _ => []
  comments := fun n => ((commentTable.find n).getD []).map CommentText.text
  isPrint := fun r => 32 ≤ r && r < 127
  facts := noFacts
/-- The package. -/
def package : Package where
  env := env
  decls := ⟨fun f => ((declTable.find f).map (·.name)).getD [], fun f => ((declTable.find f).map (·.exported)).getD false,
    fun f => (declTable.find f).bind (·.recv), fun f => (declTable.find f).bind (·.doc), fun t => has implCauseTable t,
    fun f => ((declTable.find f).map (·.pos)).getD 0⟩
  types := ⟨fun f => (((declTable.find f).bind (·.recv)).bind typeTable.find).getD (.other 0),
    fun f => ((declTable.find f).map (·.recvNames)).getD [], fun o => (interfaceTable.find o).isSome,
    fun o => (methodNameTable.find o).getD []⟩
  funcs := [0, 1, 2, 3, 4, 5, 6, 7]
  specs := [⟨12459, .named 1193, some [[s8]]⟩]
  ifaces := []
  methodObj := fun n => (methodObjTable.find n).getD 0
  conv := ⟨fun o => (underlyingTable.find o).getD (.other 0), fun n => ((sigTable.find n).map (·.1)).getD [],
    fun n => ((sigTable.find n).map (·.2.1)).getD false, fun n => (tupleTable.find n).getD [], fun n => (structTable.find n).getD [],
    fun t n => ((implTable.find n).map fun tr => has tr t).getD false⟩
  top := [
    .func 0,
    .func 1,
    .node (.other 12459 [.other 12458 [.ident ⟨12452, s13, (some 1)⟩, .other 12457 [.other 12456 [.other 12455 [.ident ⟨12453, s8, (some 3)⟩, .ident
  ⟨12454, s24, none⟩]]]]]),
    .func 2,
    .func 3,
    .func 4,
    .func 5,
    .func 6,
    .node (.other 12551 [.valueSpec 12550 [⟨12548, s5, (some 9)⟩] (some 12549) []]),
    .func 7]
/-- The run, in one order. -/
def result : Except Stop Outcome := runVerify package Check.source true
/-- What is expected.  The comments in the package say (with facts as `object: fact`):
```
file1.go:7: Func1: ErrorCodes: func1-error func2-error
file1.go:17: GlobalFromOtherFile: ErrorCodes: local-error
file1.go:19: returned error may not be a parameter, receiver or global variable
file1.go:24: Error: ErrorType{Field:{Name:"TheCode", Position:0}, Codes:}
file2.go:8: Func2: ErrorCodes: func2-error
``` -/
def expected : Check.Expected where
  tags := []
  ifaces := []
  signatures := []
  claims := []
  bodies := [(1, { at_ := 12441, msg := Serum.Msg.errorOutOfScope })]
  mismatches := []
  conversions := []
  codes := [(1191, [b!"func1-error", b!"func2-error"]),
    (1192, [b!"local-error"]),
    (1200, [b!"func2-error"])]
  ctors := []
  errorTypes := [(1193, { codes := [], field := some { name := b!"TheCode", position := 0 } })]
  interfaces := []
  objects := 1385

/-- What functions call, and which literals they visit. -/
def graph : Check.Graph :=
  [([7], []), ([], []), ([], []), ([], []), ([], []), ([], []), ([3], []), ([], [])]

theorem checked : Check.run package true expected graph = true := by decide +kernel

theorem imports : Check.Tables package.env.facts := tables_noFacts

theorem exported : Check.Tables (Check.factsOf result) := Check.tables checked imports

/-- The facts known before a run: those exported by some run over the imported packages. -/
def Imported (F : Facts) : Prop :=
  F = noFacts

/-- The facts known after a run. -/
def Exports (F : Facts) : Prop := Check.Exports package Imported true F

theorem imports_same (F : Facts) (h : Imported F) : Props.Run.SameFacts package.env.facts F := by
  obtain rfl := h
  exact (.refl _)

theorem exports_same {F : Facts} (h : Exports F) : Props.Run.SameFacts (Check.factsOf result) F :=
  Check.exports_same checked imports imports_same h

/-- **C54**: every run over the package has the expected result. -/
theorem always : Check.Always package Imported true expected :=
  Check.always checked imports imports_same

/-- For the nodes with diagnostics: file, line, and type of node. -/
def nodes : Tree (GoString × Nat × GoString) :=
  (.node Tree.nil 12441 ((b!"file1.go", 19, b!"Ident")) Tree.nil)

/-- The names of the objects named in diagnostics other than by identifiers. -/
def objectNames : Tree GoString :=
  Tree.nil

def names : Names where
  object := fun o => (objectNames.find o).getD []
  kind := fun n => ((nodes.find n).map fun p => p.2.2).getD []

def place (n : NodeId) : GoString × Nat := ((nodes.find n).map fun p => (p.1, p.2.1)).getD ([], 0)

/-- What is printed: file, line and text. -/
def lines : List Check.Line := [(b!"file1.go", 19, b!"returned error may not be a parameter, receiver or global variable")]

/-- **C54**: for every run over the package, these lines are printed. -/
theorem prints : Check.Prints package Imported true names place lines :=
  Check.prints always (by decide +kernel)

end Serum.Testdata.multifile
