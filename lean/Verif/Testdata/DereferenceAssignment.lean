import Verif.Testdata.Support

/-!
# C54: the package analysis/testdata/src/dereference_assignment

Generated by `scripts/conformance/testdata.py` from assign.go.  Numbers of syntax nodes, objects and types are arbitrary.  The tables hold
what `go/parser` and `go/types` say about the package.
-/

set_option maxRecDepth 100000
set_option linter.all false

namespace Serum.Testdata.dereferenceAssignment
open Serum Serum.Testdata

def s0 : GoString := b!"DereferenceAssignment"
def s1 : GoString := b!"err"
def s2 : GoString := b!"err2"
def s3 : GoString := b!"DereferenceAssignment2"
def s4 : GoString := b!"Code"
def s5 : GoString := b!"e"
def s6 : GoString := b!"TheCode"
def s7 : GoString := b!"Message"
def s8 : GoString := b!"Details"
def s9 : GoString := b!"nil"
def s10 : GoString := b!"Cause"
def s11 : GoString := b!"Error"
def s12 : GoString := b!"some-error"
def s13 : GoString := b!"other-error"
def s14 : GoString := b!"// Errors:"
def s15 : GoString := b!"//"
def s16 : GoString := b!"//    - some-error --"
def s17 : GoString := b!"//    - other-error --"
def s18 : GoString := b!"string"
/-- assign.go:7: `func DereferenceAssignment` -/
def f0 : FuncDef := ⟨13980, some ⟨13955, s0, (some 0)⟩, ⟨[], (some [⟨[], 13957⟩]), 119⟩, some [.assign 13965 [.ident ⟨13961, s1, (some 1)⟩]
  [.compositeLit 13964 [.basicLit 13963]], .assign 13969 [.ident ⟨13966, s2, (some 3)⟩] [.unary 13968 true (.ident ⟨13967, s1, (some 1)⟩)], .assign
  13975 [.other 13971 [.ident ⟨13970, s2, (some 3)⟩]] [.compositeLit 13974 [.basicLit 13973]], .ret 13978 [.unary 13977 true (.ident ⟨13976, s1,
  (some 1)⟩)]], 125, 280⟩
/-- assign.go:18: `func DereferenceAssignment2` -/
def f1 : FuncDef := ⟨14002, some ⟨13981, s3, (some 4)⟩, ⟨[], (some [⟨[], 13983⟩]), 371⟩, some [.assign 13992 [.ident ⟨13987, s1, (some 5)⟩] [.unary
  13991 true (.compositeLit 13990 [.basicLit 13989])], .assign 13998 [.other 13994 [.ident ⟨13993, s1, (some 5)⟩]] [.compositeLit 13997 [.basicLit
  13996]], .ret 14000 [.ident ⟨13999, s1, (some 5)⟩]], 377, 518⟩
/-- assign.go:28: `func Code` -/
def f2 : FuncDef := ⟨14027, some ⟨14016, s4, none⟩, ⟨[], (some [⟨[], 14018⟩]), 652⟩, some [.ret 14025 [.selector 14024 (.ident ⟨14022, s5, (some
  7)⟩) ⟨14023, s6, none⟩]], 673, 693⟩
/-- assign.go:29: `func Message` -/
def f3 : FuncDef := ⟨14044, some ⟨14033, s7, none⟩, ⟨[], (some [⟨[], 14035⟩]), 720⟩, some [.ret 14042 [.selector 14041 (.ident ⟨14039, s5, (some
  8)⟩) ⟨14040, s6, none⟩]], 738, 758⟩
/-- assign.go:30: `func Details` -/
def f4 : FuncDef := ⟨14061, some ⟨14050, s8, none⟩, ⟨[], (some [⟨[], 14054⟩]), 785⟩, some [.ret 14059 [.ident ⟨14058, s9, none⟩]], 803, 817⟩
/-- assign.go:31: `func Cause` -/
def f5 : FuncDef := ⟨14076, some ⟨14067, s10, none⟩, ⟨[], (some [⟨[], 14069⟩]), 842⟩, some [.ret 14074 [.ident ⟨14073, s9, none⟩]], 862, 876⟩
/-- assign.go:32: `func Error` -/
def f6 : FuncDef := ⟨14094, some ⟨14082, s11, none⟩, ⟨[], (some [⟨[], 14084⟩]), 901⟩, some [.ret 14092 [.call 14091 (.selector 14090 (.ident ⟨14088,
  s5, (some 11)⟩) ⟨14089, s7, none⟩) []]], 921, 943⟩
/-- The objects of go/ast, in the order of their numbers. -/
def objects : List ObjInfo := [
  ⟨.fun_, 95, (.funcDecl 0)⟩,
  ⟨.var, 195, .other⟩,
  ⟨.typ, 525, .typeSpec⟩,
  ⟨.var, 223, .other⟩,
  ⟨.fun_, 346, (.funcDecl 1)⟩,
  ⟨.var, 448, .other⟩,
  ⟨.var, 611, .other⟩,
  ⟨.var, 635, .other⟩,
  ⟨.var, 700, .other⟩,
  ⟨.var, 765, .other⟩,
  ⟨.var, 824, .other⟩,
  ⟨.var, 883, .other⟩]
/-- Types of expressions (`Info.Types`, `Info.Defs`, `Info.Uses`). -/
def typeTable : Tree GoType := (.node (.node (.node (.node (.node (.node (.node Tree.nil 13955 (.signature 6) Tree.nil) 13957 (.named 19) Tree.nil)
  13960 (.signature 6) (.node Tree.nil 13961 (.named 1326) Tree.nil)) 13962 (.named 1326) (.node (.node (.node Tree.nil 13963 (.string) Tree.nil)
  13964 (.named 1326) Tree.nil) 13966 (.pointer (.named 1326)) (.node Tree.nil 13967 (.named 1326) Tree.nil))) 13968 (.pointer (.named 1326)) (.node
  (.node (.node (.node Tree.nil 13970 (.pointer (.named 1326)) Tree.nil) 13971 (.named 1326) Tree.nil) 13972 (.named 1326) (.node Tree.nil 13973
  (.string) Tree.nil)) 13974 (.named 1326) (.node (.node (.node Tree.nil 13976 (.named 1326) Tree.nil) 13977 (.pointer (.named 1326)) Tree.nil)
  13981 (.signature 6) (.node Tree.nil 13983 (.named 19) Tree.nil)))) 13986 (.signature 6) (.node (.node (.node (.node (.node Tree.nil 13987
  (.pointer (.named 1326)) Tree.nil) 13988 (.named 1326) Tree.nil) 13989 (.string) (.node Tree.nil 13990 (.named 1326) Tree.nil)) 13991 (.pointer
  (.named 1326)) (.node (.node (.node Tree.nil 13993 (.pointer (.named 1326)) Tree.nil) 13994 (.named 1326) Tree.nil) 13995 (.named 1326) (.node
  Tree.nil 13996 (.string) Tree.nil))) 13997 (.named 1326) (.node (.node (.node (.node Tree.nil 13999 (.pointer (.named 1326)) Tree.nil) 14003
  (.named 1326) Tree.nil) 14004 (.string) (.node Tree.nil 14005 (.string) Tree.nil)) 14008 (.struct 1) (.node (.node (.node Tree.nil 14011 (.pointer
  (.named 1326)) Tree.nil) 14012 (.named 1326) Tree.nil) 14013 (.pointer (.named 1326)) (.node Tree.nil 14016 (.signature 11) Tree.nil))))) 14018
  (.string) (.node (.node (.node (.node (.node (.node Tree.nil 14021 (.signature 11) Tree.nil) 14022 (.pointer (.named 1326)) Tree.nil) 14023
  (.string) (.node Tree.nil 14024 (.string) Tree.nil)) 14028 (.pointer (.named 1326)) (.node (.node (.node Tree.nil 14029 (.named 1326) Tree.nil)
  14030 (.pointer (.named 1326)) Tree.nil) 14033 (.signature 11) (.node Tree.nil 14035 (.string) Tree.nil))) 14038 (.signature 11) (.node (.node
  (.node (.node Tree.nil 14039 (.pointer (.named 1326)) Tree.nil) 14040 (.string) Tree.nil) 14041 (.string) (.node Tree.nil 14045 (.pointer (.named
  1326)) Tree.nil)) 14046 (.named 1326) (.node (.node (.node Tree.nil 14047 (.pointer (.named 1326)) Tree.nil) 14050 (.signature 23) Tree.nil) 14052
  (.string) (.node Tree.nil 14053 (.string) Tree.nil)))) 14054 (.map (.string) (.string)) (.node (.node (.node (.node (.node Tree.nil 14057
  (.signature 23) Tree.nil) 14058 (.untypedNil) Tree.nil) 14062 (.pointer (.named 1326)) (.node Tree.nil 14063 (.named 1326) Tree.nil)) 14064
  (.pointer (.named 1326)) (.node (.node (.node Tree.nil 14067 (.signature 6) Tree.nil) 14069 (.named 19) Tree.nil) 14072 (.signature 6) (.node
  Tree.nil 14073 (.untypedNil) Tree.nil))) 14077 (.pointer (.named 1326)) (.node (.node (.node (.node Tree.nil 14078 (.named 1326) Tree.nil) 14079
  (.pointer (.named 1326)) Tree.nil) 14082 (.signature 11) (.node Tree.nil 14084 (.string) Tree.nil)) 14087 (.signature 11) (.node (.node (.node
  Tree.nil 14088 (.pointer (.named 1326)) Tree.nil) 14089 (.signature 11) Tree.nil) 14090 (.signature 11) (.node Tree.nil 14091 (.string)
  Tree.nil))))))
/-- Constant values of expressions. -/
def valueTable : Tree Const := (.node (.node (.node Tree.nil 13963 (.str s12) Tree.nil) 13973 (.str s13) Tree.nil) 13989 (.str s12) (.node Tree.nil
  13996 (.str s13) Tree.nil))
/-- `typeutil.Callee` of call expressions. -/
def calleeTable : Tree Nat := (.node Tree.nil 14091 (1328) Tree.nil)
/-- `Info.Uses`. -/
def usesTable : Tree Nat := (.node (.node (.node (.node (.node Tree.nil 13957 (19) Tree.nil) 13962 (1326) (.node Tree.nil 13967 (1333) Tree.nil))
  13970 (1334) (.node (.node Tree.nil 13972 (1326) Tree.nil) 13976 (1333) (.node Tree.nil 13983 (19) Tree.nil))) 13988 (1326) (.node (.node (.node
  Tree.nil 13993 (1335) Tree.nil) 13995 (1326) (.node Tree.nil 13999 (1335) Tree.nil)) 14005 (16) (.node (.node Tree.nil 14012 (1326) Tree.nil)
  14018 (16) (.node Tree.nil 14022 (1336) Tree.nil)))) 14023 (105) (.node (.node (.node (.node Tree.nil 14029 (1326) Tree.nil) 14035 (16) (.node
  Tree.nil 14039 (1337) Tree.nil)) 14040 (105) (.node (.node Tree.nil 14046 (1326) Tree.nil) 14052 (16) (.node Tree.nil 14053 (16) Tree.nil))) 14058
  (23) (.node (.node (.node Tree.nil 14063 (1326) Tree.nil) 14069 (19) (.node Tree.nil 14073 (23) Tree.nil)) 14078 (1326) (.node (.node Tree.nil
  14084 (16) Tree.nil) 14088 (1340) (.node Tree.nil 14089 (1328) Tree.nil)))))
/-- `Info.Selections`. -/
def selectionTable : Tree (GoType × Nat) := (.node (.node Tree.nil 14024 ((.pointer (.named 1326), 105)) Tree.nil) 14041 ((.pointer (.named 1326),
  105)) (.node Tree.nil 14090 ((.pointer (.named 1326), 1328)) Tree.nil))
/-- Identifiers that are names of imported packages. -/
def pkgNameTable : Tree GoString := Tree.nil
/-- Method sets. -/
def methodSetTable : Tree (List (GoString × Nat)) := (.node (.node Tree.nil 27 ([(s11, 1386)]) Tree.nil) 95 ([(s11, 20)]) (.node Tree.nil 6631
  ([(s10, 1330), (s4, 1327), (s8, 1329), (s11, 1331), (s7, 1328)]) Tree.nil))
/-- Types implementing `error`. -/
def implErrorTable : Tree Unit := (.node (.node Tree.nil 27 (()) Tree.nil) 95 (()) (.node Tree.nil 6631 (()) Tree.nil))
/-- Types implementing `error` with a code. -/
def implCodeTable : Tree Unit := (.node Tree.nil 6631 (()) Tree.nil)
/-- Types implementing `error` with a cause. -/
def implCauseTable : Tree Unit := (.node Tree.nil 6631 (()) Tree.nil)
/-- Signatures: types of parameters, variadic, number of results. -/
def sigTable : Tree (List GoType × Bool × Nat) := (.node (.node Tree.nil 6 (([], false, 1)) Tree.nil) 11 (([], false, 1)) (.node Tree.nil 23 (([],
  false, 1)) Tree.nil))
/-- Tuples of results. -/
def tupleTable : Tree (List GoType) := Tree.nil
/-- Fields of structs. -/
def structTable : Tree (List (GoString × GoType)) := (.node Tree.nil 1 ([(s6, .string)]) Tree.nil)
/-- Underlying types of named types. -/
def underlyingTable : Tree GoType := (.node (.node Tree.nil 19 (.interface 5) Tree.nil) 1326 (.struct 1) Tree.nil)
/-- Which types implement which interfaces. -/
def implTable : Tree (Tree Unit) := (.node Tree.nil 5 ((.node (.node Tree.nil 27 (()) Tree.nil) 95 (()) (.node Tree.nil 6631 (()) Tree.nil)))
  Tree.nil)
/-- Comments at return statements (`ast.NewCommentMap`). -/
def commentTable : Tree (List (List GoString)) := Tree.nil
/-- Function declarations. -/
def declTable : Tree DeclInfo := (.node (.node (.node Tree.nil 0 (⟨s0, true, none, some (CommentText.text [s14, s15, s16, s17]), 13980, 1324, []⟩)
  Tree.nil) 1 (⟨s3, true, none, some (CommentText.text [s14, s15, s16, s17]), 14002, 1325, []⟩) (.node Tree.nil 2 (⟨s4, true, some 14013, none,
  14027, 1327, [⟨14011, s5, (some 7)⟩]⟩) Tree.nil)) 3 (⟨s7, true, some 14030, none, 14044, 1328, [⟨14028, s5, (some 8)⟩]⟩) (.node (.node Tree.nil 4
  (⟨s8, true, some 14047, none, 14061, 1329, [⟨14045, s5, (some 9)⟩]⟩) Tree.nil) 5 (⟨s10, true, some 14064, none, 14076, 1330, [⟨14062, s5, (some
  10)⟩]⟩) (.node Tree.nil 6 (⟨s11, true, some 14079, none, 14094, 1331, [⟨14077, s5, (some 11)⟩]⟩) Tree.nil)))
/-- Named interfaces. -/
def interfaceTable : Tree Unit := (.node Tree.nil 19 (()) Tree.nil)
/-- Methods of named types. -/
def methodNameTable : Tree (List GoString) := (.node Tree.nil 1326 ([s4, s7, s8, s10, s11]) Tree.nil)
/-- Objects of interface methods. -/
def methodObjTable : Tree Nat := Tree.nil
/-- Syntax and types of the package, and the facts exported by the packages it imports. -/
def env : Env where
  funcs := [f0, f1, f2, f3, f4, f5, f6]
  objects := objects
  typeOf := fun n => (typeTable.find n).getD (.other 0)
  value := valueTable.find
  callee := calleeTable.find
  uses := usesTable.find
  selection := selectionTable.find
  pkgName := pkgNameTable.find
  funcObj := fun f => ((declTable.find f).map (·.obj)).getD 0
  implError := fun t => has implErrorTable t
  implCode := fun t => has implCodeTable t
  sigResults := fun n => ((sigTable.find n).map (·.2.2)).getD 0
  methodSet := fun t name => ((typeKey t).bind methodSetTable.find).bind fun l => lookup name l
  functions := fun _ => none
  methods := fun _ => []
  comments := fun n => ((commentTable.find n).getD []).map CommentText.text
  isPrint := fun r => 32 ≤ r && r < 127
  facts := noFacts
/-- The package. -/
def package : Package where
  env := env
  decls := ⟨fun f => ((declTable.find f).map (·.name)).getD [], fun f => ((declTable.find f).map (·.exported)).getD false,
    fun f => (declTable.find f).bind (·.recv), fun f => (declTable.find f).bind (·.doc), fun t => has implCauseTable t,
    fun f => ((declTable.find f).map (·.pos)).getD 0⟩
  types := ⟨fun f => (((declTable.find f).bind (·.recv)).bind typeTable.find).getD (.other 0),
    fun f => ((declTable.find f).map (·.recvNames)).getD [], fun o => (interfaceTable.find o).isSome,
    fun o => (methodNameTable.find o).getD []⟩
  funcs := [0, 1, 2, 3, 4, 5, 6]
  specs := [⟨14010, .named 1326, some [[s6]]⟩]
  ifaces := []
  methodObj := fun n => (methodObjTable.find n).getD 0
  conv := ⟨fun o => (underlyingTable.find o).getD (.other 0), fun n => ((sigTable.find n).map (·.1)).getD [],
    fun n => ((sigTable.find n).map (·.2.1)).getD false, fun n => (tupleTable.find n).getD [], fun n => (structTable.find n).getD [],
    fun t n => ((implTable.find n).map fun tr => has tr t).getD false⟩
  top := [
    .func 0,
    .func 1,
    .node (.other 14010 [.other 14009 [.ident ⟨14003, s11, (some 2)⟩, .other 14008 [.other 14007 [.other 14006 [.ident ⟨14004, s6, (some 6)⟩, .ident
  ⟨14005, s18, none⟩]]]]]),
    .func 2,
    .func 3,
    .func 4,
    .func 5,
    .func 6]
/-- The run, in one order. -/
def result : Except Stop Outcome := runVerify package Check.source true
/-- What is expected.  The comments in the package say (with facts as `object: fact`):
```
assign.go:7: DereferenceAssignment: ErrorCodes: other-error some-error
assign.go:18: DereferenceAssignment2: ErrorCodes: other-error some-error
assign.go:24: Error: ErrorType{Field:{Name:"TheCode", Position:0}, Codes:}
```
Besides, these are reported, as listed in `TestNotImplemented` (analyse_test.go:60-97):
```
assign.go:7: function "DereferenceAssignment" has a mismatch of declared and actual error codes: unused codes: [other-error]
assign.go:18: function "DereferenceAssignment2" has a mismatch of declared and actual error codes: unused codes: [other-error]
``` -/
def expected : Check.Expected where
  tags := []
  ifaces := []
  signatures := []
  claims := []
  bodies := []
  mismatches := [(0, b!"unused codes: [other-error]"),
    (1, b!"unused codes: [other-error]")]
  conversions := []
  codes := [(1324, [b!"some-error", b!"other-error"]),
    (1325, [b!"some-error", b!"other-error"])]
  ctors := []
  errorTypes := [(1326, { codes := [], field := some { name := b!"TheCode", position := 0 } })]
  interfaces := []
  objects := 1385

/-- What functions call, and which literals they visit. -/
def graph : Check.Graph :=
  [([], []), ([], []), ([], []), ([], []), ([], []), ([], []), ([3], [])]

theorem checked : Check.run package true expected graph = true := by decide +kernel

theorem imports : Check.Tables package.env.facts := tables_noFacts

theorem exported : Check.Tables (Check.factsOf result) := Check.tables checked imports

/-- The facts known before a run: those exported by some run over the imported packages. -/
def Imported (F : Facts) : Prop :=
  F = noFacts

/-- The facts known after a run. -/
def Exports (F : Facts) : Prop := Check.Exports package Imported true F

theorem imports_same (F : Facts) (h : Imported F) : Props.Run.SameFacts package.env.facts F := by
  obtain rfl := h
  exact (.refl _)

theorem exports_same {F : Facts} (h : Exports F) : Props.Run.SameFacts (Check.factsOf result) F :=
  Check.exports_same checked imports imports_same h

/-- **C54**: every run over the package has the expected result. -/
theorem always : Check.Always package Imported true expected :=
  Check.always checked imports imports_same

/-- For the nodes with diagnostics: file, line, and type of node. -/
def nodes : Tree (GoString × Nat × GoString) :=
  (.node (.node Tree.nil 13980 ((b!"assign.go", 7, b!"FuncDecl")) Tree.nil) 14002 ((b!"assign.go", 18, b!"FuncDecl")) Tree.nil)

/-- The names of the objects named in diagnostics other than by identifiers. -/
def objectNames : Tree GoString :=
  Tree.nil

def names : Names where
  object := fun o => (objectNames.find o).getD []
  kind := fun n => ((nodes.find n).map fun p => p.2.2).getD []

def place (n : NodeId) : GoString × Nat := ((nodes.find n).map fun p => (p.1, p.2.1)).getD ([], 0)

/-- What is printed: file, line and text. -/
def lines : List Check.Line := [(b!"assign.go", 7, b!"function \"DereferenceAssignment\" has a mismatch of declared and actual error codes: unused codes: [other-error]"),
    (b!"assign.go", 18, b!"function \"DereferenceAssignment2\" has a mismatch of declared and actual error codes: unused codes: [other-error]")]

/-- **C54**: for every run over the package, these lines are printed. -/
theorem prints : Check.Prints package Imported true names place lines :=
  Check.prints always (by decide +kernel)

end Serum.Testdata.dereferenceAssignment
