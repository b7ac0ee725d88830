import Verif.Testdata.Support

/-!
# C54: the package analysis/testdata/src/multipackage/inner2

Generated by `scripts/conformance/testdata.py` from inner2.go.  Numbers of syntax nodes, objects and types are arbitrary.  The tables hold
what `go/parser` and `go/types` say about the package.
-/

set_option maxRecDepth 100000
set_option linter.all false

namespace Serum.Testdata.multipackageInner2
open Serum Serum.Testdata

def s0 : GoString := b!"ExportedFunc2"
def s1 : GoString := b!"CodeNotDeclared"
def s2 : GoString := b!"Code"
def s3 : GoString := b!"e"
def s4 : GoString := b!"TheCode"
def s5 : GoString := b!"Message"
def s6 : GoString := b!"Details"
def s7 : GoString := b!"nil"
def s8 : GoString := b!"Cause"
def s9 : GoString := b!"Error"
def s10 : GoString := b!"hello-error"
def s11 : GoString := b!"some-error"
def s12 : GoString := b!"// ExportedFunc2 is a demo function."
def s13 : GoString := b!"//"
def s14 : GoString := b!"// Errors:"
def s15 : GoString := b!"//    - hello-error -- is always returned"
def s16 : GoString := b!"SomeType"
def s17 : GoString := b!"string"
def s18 : GoString := b!"UnusedError"
/-- inner2.go:8: `func ExportedFunc2` -/
def f0 : FuncDef := ⟨13146, some ⟨13134, s0, (some 0)⟩, ⟨[], (some [⟨[], 13136⟩]), 133⟩, some [.ret 13144 [.unary 13143 true (.compositeLit 13142
  [.basicLit 13141])]], 139, 172⟩
/-- inner2.go:12: `func CodeNotDeclared` -/
def f1 : FuncDef := ⟨13159, some ⟨13147, s1, (some 2)⟩, ⟨[], (some [⟨[], 13149⟩]), 197⟩, some [.ret 13157 [.unary 13156 true (.compositeLit 13155
  [.basicLit 13154])]], 203, 235⟩
/-- inner2.go:18: `func CodeNotDeclared` -/
def f2 : FuncDef := ⟨13180, some ⟨13168, s1, none⟩, ⟨[], (some [⟨[], 13170⟩]), 295⟩, some [.ret 13178 [.unary 13177 true (.compositeLit 13176
  [.basicLit 13175])]], 301, 333⟩
/-- inner2.go:26: `func Code` -/
def f3 : FuncDef := ⟨13205, some ⟨13194, s2, none⟩, ⟨[], (some [⟨[], 13196⟩]), 397⟩, some [.ret 13203 [.selector 13202 (.ident ⟨13200, s3, (some
  5)⟩) ⟨13201, s4, none⟩]], 418, 438⟩
/-- inner2.go:27: `func Message` -/
def f4 : FuncDef := ⟨13222, some ⟨13211, s5, none⟩, ⟨[], (some [⟨[], 13213⟩]), 465⟩, some [.ret 13220 [.selector 13219 (.ident ⟨13217, s3, (some
  6)⟩) ⟨13218, s4, none⟩]], 483, 503⟩
/-- inner2.go:28: `func Details` -/
def f5 : FuncDef := ⟨13239, some ⟨13228, s6, none⟩, ⟨[], (some [⟨[], 13232⟩]), 530⟩, some [.ret 13237 [.ident ⟨13236, s7, none⟩]], 548, 562⟩
/-- inner2.go:29: `func Cause` -/
def f6 : FuncDef := ⟨13254, some ⟨13245, s8, none⟩, ⟨[], (some [⟨[], 13247⟩]), 587⟩, some [.ret 13252 [.ident ⟨13251, s7, none⟩]], 607, 621⟩
/-- inner2.go:30: `func Error` -/
def f7 : FuncDef := ⟨13272, some ⟨13260, s9, none⟩, ⟨[], (some [⟨[], 13262⟩]), 646⟩, some [.ret 13270 [.call 13269 (.selector 13268 (.ident ⟨13266,
  s3, (some 9)⟩) ⟨13267, s5, none⟩) []]], 666, 688⟩
/-- inner2.go:36: `func Code` -/
def f8 : FuncDef := ⟨13297, some ⟨13286, s2, none⟩, ⟨[], (some [⟨[], 13288⟩]), 764⟩, some [.ret 13295 [.selector 13294 (.ident ⟨13292, s3, (some
  12)⟩) ⟨13293, s4, none⟩]], 772, 792⟩
/-- inner2.go:37: `func Error` -/
def f9 : FuncDef := ⟨13314, some ⟨13303, s9, none⟩, ⟨[], (some [⟨[], 13305⟩]), 823⟩, some [.ret 13312 [.selector 13311 (.ident ⟨13309, s3, (some
  13)⟩) ⟨13310, s4, none⟩]], 830, 850⟩
/-- The objects of go/ast, in the order of their numbers. -/
def objects : List ObjInfo := [
  ⟨.fun_, 117, (.funcDecl 0)⟩,
  ⟨.typ, 340, .typeSpec⟩,
  ⟨.fun_, 179, (.funcDecl 1)⟩,
  ⟨.typ, 242, .typeSpec⟩,
  ⟨.var, 356, .other⟩,
  ⟨.var, 380, .other⟩,
  ⟨.var, 445, .other⟩,
  ⟨.var, 510, .other⟩,
  ⟨.var, 569, .other⟩,
  ⟨.var, 628, .other⟩,
  ⟨.typ, 695, .typeSpec⟩,
  ⟨.var, 717, .other⟩,
  ⟨.var, 741, .other⟩,
  ⟨.var, 799, .other⟩]
/-- Types of expressions (`Info.Types`, `Info.Defs`, `Info.Uses`). -/
def typeTable : Tree GoType := (.node (.node (.node (.node (.node (.node (.node Tree.nil 13134 (.signature 6) Tree.nil) 13136 (.named 19) Tree.nil)
  13139 (.signature 6) (.node (.node Tree.nil 13140 (.named 1234) Tree.nil) 13141 (.string) Tree.nil)) 13142 (.named 1234) (.node (.node (.node
  Tree.nil 13143 (.pointer (.named 1234)) Tree.nil) 13147 (.signature 6) Tree.nil) 13149 (.named 19) (.node (.node Tree.nil 13152 (.signature 6)
  Tree.nil) 13153 (.named 1234) Tree.nil))) 13154 (.string) (.node (.node (.node (.node Tree.nil 13155 (.named 1234) Tree.nil) 13156 (.pointer
  (.named 1234)) Tree.nil) 13160 (.named 1232) (.node (.node Tree.nil 13162 (.struct 2) Tree.nil) 13165 (.named 1232) Tree.nil)) 13168 (.signature
  6) (.node (.node (.node Tree.nil 13170 (.named 19) Tree.nil) 13173 (.signature 6) Tree.nil) 13174 (.named 1234) (.node (.node Tree.nil 13175
  (.string) Tree.nil) 13176 (.named 1234) Tree.nil)))) 13177 (.pointer (.named 1234)) (.node (.node (.node (.node (.node Tree.nil 13181 (.named
  1234) Tree.nil) 13182 (.string) Tree.nil) 13183 (.string) (.node (.node Tree.nil 13186 (.struct 1) Tree.nil) 13189 (.pointer (.named 1234))
  Tree.nil)) 13190 (.named 1234) (.node (.node (.node Tree.nil 13191 (.pointer (.named 1234)) Tree.nil) 13194 (.signature 11) Tree.nil) 13196
  (.string) (.node (.node Tree.nil 13199 (.signature 11) Tree.nil) 13200 (.pointer (.named 1234)) Tree.nil))) 13201 (.string) (.node (.node (.node
  (.node Tree.nil 13202 (.string) Tree.nil) 13206 (.pointer (.named 1234)) Tree.nil) 13207 (.named 1234) (.node (.node Tree.nil 13208 (.pointer
  (.named 1234)) Tree.nil) 13211 (.signature 11) Tree.nil)) 13213 (.string) (.node (.node (.node Tree.nil 13216 (.signature 11) Tree.nil) 13217
  (.pointer (.named 1234)) Tree.nil) 13218 (.string) (.node (.node Tree.nil 13219 (.string) Tree.nil) 13223 (.pointer (.named 1234)) Tree.nil)))))
  13224 (.named 1234) (.node (.node (.node (.node (.node (.node Tree.nil 13225 (.pointer (.named 1234)) Tree.nil) 13228 (.signature 23) Tree.nil)
  13230 (.string) (.node (.node Tree.nil 13231 (.string) Tree.nil) 13232 (.map (.string) (.string)) Tree.nil)) 13235 (.signature 23) (.node (.node
  (.node Tree.nil 13236 (.untypedNil) Tree.nil) 13240 (.pointer (.named 1234)) Tree.nil) 13241 (.named 1234) (.node (.node Tree.nil 13242 (.pointer
  (.named 1234)) Tree.nil) 13245 (.signature 6) Tree.nil))) 13247 (.named 19) (.node (.node (.node (.node Tree.nil 13250 (.signature 6) Tree.nil)
  13251 (.untypedNil) Tree.nil) 13255 (.pointer (.named 1234)) (.node (.node Tree.nil 13256 (.named 1234) Tree.nil) 13257 (.pointer (.named 1234))
  Tree.nil)) 13260 (.signature 11) (.node (.node (.node Tree.nil 13262 (.string) Tree.nil) 13265 (.signature 11) Tree.nil) 13266 (.pointer (.named
  1234)) (.node (.node Tree.nil 13267 (.signature 11) Tree.nil) 13268 (.signature 11) Tree.nil)))) 13269 (.string) (.node (.node (.node (.node
  (.node Tree.nil 13273 (.named 1240) Tree.nil) 13274 (.string) Tree.nil) 13275 (.string) (.node (.node Tree.nil 13278 (.struct 1) Tree.nil) 13281
  (.pointer (.named 1240)) Tree.nil)) 13282 (.named 1240) (.node (.node (.node Tree.nil 13283 (.pointer (.named 1240)) Tree.nil) 13286 (.signature
  11) Tree.nil) 13288 (.string) (.node (.node Tree.nil 13291 (.signature 11) Tree.nil) 13292 (.pointer (.named 1240)) Tree.nil))) 13293 (.string)
  (.node (.node (.node (.node Tree.nil 13294 (.string) Tree.nil) 13298 (.pointer (.named 1240)) Tree.nil) 13299 (.named 1240) (.node (.node Tree.nil
  13300 (.pointer (.named 1240)) Tree.nil) 13303 (.signature 11) Tree.nil)) 13305 (.string) (.node (.node (.node Tree.nil 13308 (.signature 11)
  Tree.nil) 13309 (.pointer (.named 1240)) Tree.nil) 13310 (.string) (.node Tree.nil 13311 (.string) Tree.nil))))))
/-- Constant values of expressions. -/
def valueTable : Tree Const := (.node (.node Tree.nil 13141 (.str s10) Tree.nil) 13154 (.str s11) (.node Tree.nil 13175 (.str s11) Tree.nil))
/-- `typeutil.Callee` of call expressions. -/
def calleeTable : Tree Nat := (.node Tree.nil 13269 (1236) Tree.nil)
/-- `Info.Uses`. -/
def usesTable : Tree Nat := (.node (.node (.node (.node (.node (.node Tree.nil 13136 (19) Tree.nil) 13140 (1234) Tree.nil) 13149 (19) (.node
  Tree.nil 13153 (1234) Tree.nil)) 13165 (1232) (.node (.node (.node Tree.nil 13170 (19) Tree.nil) 13174 (1234) Tree.nil) 13183 (16) (.node Tree.nil
  13190 (1234) Tree.nil))) 13196 (16) (.node (.node (.node (.node Tree.nil 13200 (1245) Tree.nil) 13201 (105) Tree.nil) 13207 (1234) (.node Tree.nil
  13213 (16) Tree.nil)) 13217 (1246) (.node (.node Tree.nil 13218 (105) Tree.nil) 13224 (1234) (.node Tree.nil 13230 (16) Tree.nil)))) 13231 (16)
  (.node (.node (.node (.node (.node Tree.nil 13236 (23) Tree.nil) 13241 (1234) Tree.nil) 13247 (19) (.node Tree.nil 13251 (23) Tree.nil)) 13256
  (1234) (.node (.node Tree.nil 13262 (16) Tree.nil) 13266 (1249) (.node Tree.nil 13267 (1236) Tree.nil))) 13275 (16) (.node (.node (.node (.node
  Tree.nil 13282 (1240) Tree.nil) 13288 (16) Tree.nil) 13292 (1250) (.node Tree.nil 13293 (105) Tree.nil)) 13299 (1240) (.node (.node Tree.nil 13305
  (16) Tree.nil) 13309 (1251) (.node Tree.nil 13310 (105) Tree.nil)))))
/-- `Info.Selections`. -/
def selectionTable : Tree (GoType × Nat) := (.node (.node (.node Tree.nil 13202 ((.pointer (.named 1234), 105)) Tree.nil) 13219 ((.pointer (.named
  1234), 105)) Tree.nil) 13268 ((.pointer (.named 1234), 1236)) (.node (.node Tree.nil 13294 ((.pointer (.named 1240), 105)) Tree.nil) 13311
  ((.pointer (.named 1240), 105)) Tree.nil))
/-- Identifiers that are names of imported packages. -/
def pkgNameTable : Tree GoString := Tree.nil
/-- Method sets. -/
def methodSetTable : Tree (List (GoString × Nat)) := (.node (.node (.node Tree.nil 27 ([(s9, 1386)]) Tree.nil) 95 ([(s9, 20)]) (.node Tree.nil 6160
  ([(s1, 1233)]) Tree.nil)) 6161 ([(s1, 1233)]) (.node (.node Tree.nil 6171 ([(s8, 1238), (s2, 1235), (s6, 1237), (s9, 1239), (s5, 1236)]) Tree.nil)
  6201 ([(s2, 1241), (s9, 1242)]) Tree.nil))
/-- Types implementing `error`. -/
def implErrorTable : Tree Unit := (.node (.node (.node Tree.nil 27 (()) Tree.nil) 95 (()) Tree.nil) 6171 (()) (.node Tree.nil 6201 (()) Tree.nil))
/-- Types implementing `error` with a code. -/
def implCodeTable : Tree Unit := (.node (.node Tree.nil 6171 (()) Tree.nil) 6201 (()) Tree.nil)
/-- Types implementing `error` with a cause. -/
def implCauseTable : Tree Unit := (.node Tree.nil 6171 (()) Tree.nil)
/-- Signatures: types of parameters, variadic, number of results. -/
def sigTable : Tree (List GoType × Bool × Nat) := (.node (.node Tree.nil 6 (([], false, 1)) Tree.nil) 11 (([], false, 1)) (.node Tree.nil 23 (([],
  false, 1)) Tree.nil))
/-- Tuples of results. -/
def tupleTable : Tree (List GoType) := Tree.nil
/-- Fields of structs. -/
def structTable : Tree (List (GoString × GoType)) := (.node (.node Tree.nil 1 ([(s4, .string)]) Tree.nil) 2 ([]) Tree.nil)
/-- Underlying types of named types. -/
def underlyingTable : Tree GoType := (.node (.node (.node Tree.nil 19 (.interface 5) Tree.nil) 1232 (.struct 2) Tree.nil) 1234 (.struct 1) (.node
  Tree.nil 1240 (.struct 1) Tree.nil))
/-- Which types implement which interfaces. -/
def implTable : Tree (Tree Unit) := (.node Tree.nil 5 ((.node (.node (.node Tree.nil 27 (()) Tree.nil) 95 (()) Tree.nil) 6171 (()) (.node Tree.nil
  6201 (()) Tree.nil))) Tree.nil)
/-- Comments at return statements (`ast.NewCommentMap`). -/
def commentTable : Tree (List (List GoString)) := Tree.nil
/-- Function declarations. -/
def declTable : Tree DeclInfo := (.node (.node (.node (.node Tree.nil 0 (⟨s0, true, none, some (CommentText.text [s12, s13, s14, s13, s15]), 13146,
  1230, []⟩) Tree.nil) 1 (⟨s1, true, none, none, 13159, 1231, []⟩) Tree.nil) 2 (⟨s1, true, some 13165, none, 13180, 1233, []⟩) (.node (.node
  Tree.nil 3 (⟨s2, true, some 13191, none, 13205, 1235, [⟨13189, s3, (some 5)⟩]⟩) Tree.nil) 4 (⟨s5, true, some 13208, none, 13222, 1236, [⟨13206,
  s3, (some 6)⟩]⟩) Tree.nil)) 5 (⟨s6, true, some 13225, none, 13239, 1237, [⟨13223, s3, (some 7)⟩]⟩) (.node (.node (.node Tree.nil 6 (⟨s8, true,
  some 13242, none, 13254, 1238, [⟨13240, s3, (some 8)⟩]⟩) Tree.nil) 7 (⟨s9, true, some 13257, none, 13272, 1239, [⟨13255, s3, (some 9)⟩]⟩)
  Tree.nil) 8 (⟨s2, true, some 13283, none, 13297, 1241, [⟨13281, s3, (some 12)⟩]⟩) (.node Tree.nil 9 (⟨s9, true, some 13300, none, 13314, 1242,
  [⟨13298, s3, (some 13)⟩]⟩) Tree.nil)))
/-- Named interfaces. -/
def interfaceTable : Tree Unit := (.node Tree.nil 19 (()) Tree.nil)
/-- Methods of named types. -/
def methodNameTable : Tree (List GoString) := (.node (.node Tree.nil 1232 ([s1]) Tree.nil) 1234 ([s2, s5, s6, s8, s9]) (.node Tree.nil 1240 ([s2,
  s9]) Tree.nil))
/-- Objects of interface methods. -/
def methodObjTable : Tree Nat := Tree.nil
/-- Syntax and types of the package, and the facts exported by the packages it imports. -/
def env : Env where
  funcs := [f0, f1, f2, f3, f4, f5, f6, f7, f8, f9]
  objects := objects
  typeOf := fun n => (typeTable.find n).getD (.other 0)
  value := valueTable.find
  callee := calleeTable.find
  uses := usesTable.find
  selection := selectionTable.find
  pkgName := pkgNameTable.find
  funcObj := fun f => ((declTable.find f).map (·.obj)).getD 0
  implError := fun t => has implErrorTable t
  implCode := fun t => has implCodeTable t
  sigResults := fun n => ((sigTable.find n).map (·.2.2)).getD 0
  methodSet := fun t name => ((typeKey t).bind methodSetTable.find).bind fun l => lookup name l
  functions := fun _ => none
  methods := fun _ => []
  comments := fun n => ((commentTable.find n).getD []).map CommentText.text
  isPrint := fun r => 32 ≤ r && r < 127
  facts := noFacts
/-- The package. -/
def package : Package where
  env := env
  decls := ⟨fun f => ((declTable.find f).map (·.name)).getD [], fun f => ((declTable.find f).map (·.exported)).getD false,
    fun f => (declTable.find f).bind (·.recv), fun f => (declTable.find f).bind (·.doc), fun t => has implCauseTable t,
    fun f => ((declTable.find f).map (·.pos)).getD 0⟩
  types := ⟨fun f => (((declTable.find f).bind (·.recv)).bind typeTable.find).getD (.other 0),
    fun f => ((declTable.find f).map (·.recvNames)).getD [], fun o => (interfaceTable.find o).isSome,
    fun o => (methodNameTable.find o).getD []⟩
  funcs := [0, 1, 2, 3, 4, 5, 6, 7, 8, 9]
  specs := [⟨13164, .named 1232, some []⟩, ⟨13188, .named 1234, some [[s4]]⟩, ⟨13280, .named 1240, some [[s4]]⟩]
  ifaces := []
  methodObj := fun n => (methodObjTable.find n).getD 0
  conv := ⟨fun o => (underlyingTable.find o).getD (.other 0), fun n => ((sigTable.find n).map (·.1)).getD [],
    fun n => ((sigTable.find n).map (·.2.1)).getD false, fun n => (tupleTable.find n).getD [], fun n => (structTable.find n).getD [],
    fun t n => ((implTable.find n).map fun tr => has tr t).getD false⟩
  top := [
    .func 0,
    .func 1,
    .node (.other 13164 [.other 13163 [.ident ⟨13160, s16, (some 3)⟩, .other 13162 [.other 13161 []]]]),
    .func 2,
    .node (.other 13188 [.other 13187 [.ident ⟨13181, s9, (some 1)⟩, .other 13186 [.other 13185 [.other 13184 [.ident ⟨13182, s4, (some 4)⟩, .ident
  ⟨13183, s17, none⟩]]]]]),
    .func 3,
    .func 4,
    .func 5,
    .func 6,
    .func 7,
    .node (.other 13280 [.other 13279 [.ident ⟨13273, s18, (some 10)⟩, .other 13278 [.other 13277 [.other 13276 [.ident ⟨13274, s4, (some 11)⟩,
  .ident ⟨13275, s17, none⟩]]]]]),
    .func 8,
    .func 9]
/-- The run, in one order. -/
def result : Except Stop Outcome := runVerify package Check.source true
/-- What is expected.  The comments in the package say (with facts as `object: fact`):
```

``` -/
def expected : Check.Expected where
  tags := []
  ifaces := []
  signatures := []
  claims := [{ at_ := 13159, msg := Serum.ClaimMsg.exportedUndeclared b!"CodeNotDeclared" },
    { at_ := 13180, msg := Serum.ClaimMsg.exportedUndeclared b!"CodeNotDeclared" }]
  bodies := []
  mismatches := []
  conversions := []
  codes := [(1230, [b!"hello-error"])]
  ctors := []
  errorTypes := [(1234, { codes := [], field := some { name := b!"TheCode", position := 0 } }),
    (1240, { codes := [], field := some { name := b!"TheCode", position := 0 } })]
  interfaces := []
  objects := 1385

/-- What functions call, and which literals they visit. -/
def graph : Check.Graph :=
  [([], []), ([], []), ([], []), ([], []), ([], []), ([], []), ([], []), ([4], []), ([], []), ([], [])]

theorem checked : Check.run package true expected graph = true := by decide +kernel

theorem imports : Check.Tables package.env.facts := tables_noFacts

theorem exported : Check.Tables (Check.factsOf result) := Check.tables checked imports

/-- The facts known before a run: those exported by some run over the imported packages. -/
def Imported (F : Facts) : Prop :=
  F = noFacts

/-- The facts known after a run. -/
def Exports (F : Facts) : Prop := Check.Exports package Imported true F

theorem imports_same (F : Facts) (h : Imported F) : Props.Run.SameFacts package.env.facts F := by
  obtain rfl := h
  exact (.refl _)

theorem exports_same {F : Facts} (h : Exports F) : Props.Run.SameFacts (Check.factsOf result) F :=
  Check.exports_same checked imports imports_same h

/-- **C54**: every run over the package has the expected result. -/
theorem always : Check.Always package Imported true expected :=
  Check.always checked imports imports_same

/-- For the nodes with diagnostics: file, line, and type of node. -/
def nodes : Tree (GoString × Nat × GoString) :=
  (.node (.node Tree.nil 13159 ((b!"inner2.go", 12, b!"FuncDecl")) Tree.nil) 13180 ((b!"inner2.go", 18, b!"FuncDecl")) Tree.nil)

/-- The names of the objects named in diagnostics other than by identifiers. -/
def objectNames : Tree GoString :=
  Tree.nil

def names : Names where
  object := fun o => (objectNames.find o).getD []
  kind := fun n => ((nodes.find n).map fun p => p.2.2).getD []

def place (n : NodeId) : GoString × Nat := ((nodes.find n).map fun p => (p.1, p.2.1)).getD ([], 0)

/-- What is printed: file, line and text. -/
def lines : List Check.Line := [(b!"inner2.go", 12, b!"function \"CodeNotDeclared\" is exported, but does not declare any error codes"),
    (b!"inner2.go", 18, b!"function \"CodeNotDeclared\" is exported, but does not declare any error codes")]

/-- **C54**: for every run over the package, these lines are printed. -/
theorem prints : Check.Prints package Imported true names place lines :=
  Check.prints always (by decide +kernel)

end Serum.Testdata.multipackageInner2
