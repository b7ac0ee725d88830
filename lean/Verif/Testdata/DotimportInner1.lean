import Verif.Testdata.Support

/-!
# C54: the package analysis/testdata/src/dotimport/inner1

Generated by `scripts/conformance/testdata.py` from inner1.go.  Numbers of syntax nodes, objects and types are arbitrary.  The tables hold
what `go/parser` and `go/types` say about the package.
-/

set_option maxRecDepth 100000
set_option linter.all false

namespace Serum.Testdata.dotimportInner1
open Serum Serum.Testdata

def s0 : GoString := b!"ExportedFunc1"
def s1 : GoString := b!"CodeNotDeclared1"
def s2 : GoString := b!"CodeNotDeclared"
def s3 : GoString := b!"Code"
def s4 : GoString := b!"e"
def s5 : GoString := b!"TheCode"
def s6 : GoString := b!"Message"
def s7 : GoString := b!"Details"
def s8 : GoString := b!"nil"
def s9 : GoString := b!"Cause"
def s10 : GoString := b!"Error"
def s11 : GoString := b!"hello-error"
def s12 : GoString := b!"some-error"
def s13 : GoString := b!"// want ExportedFunc1:\"ErrorCodes: hello-error\""
def s14 : GoString := b!"// want `function \"CodeNotDeclared1\" is exported, but does not declare any error codes`"
def s15 : GoString := b!"// want `function \"CodeNotDeclared\" is exported, but does not declare any error codes`"
def s16 : GoString := b!"// ExportedFunc1 is a demo function."
def s17 : GoString := b!"//"
def s18 : GoString := b!"// Errors:"
def s19 : GoString := b!"//    - hello-error -- is always returned"
def s20 : GoString := b!"SomeType1"
def s21 : GoString := b!"Inner1Error"
def s22 : GoString := b!"string"
def s23 : GoString := b!"Inner1UnusedError"
/-- inner1.go:8: `func ExportedFunc1` -/
def f0 : FuncDef := ⟨2030, some ⟨2018, s0, (some 0)⟩, ⟨[], (some [⟨[], 2020⟩]), 133⟩, some [.ret 2028 [.unary 2027 true (.compositeLit 2026
  [.basicLit 2025])]], 139, 226⟩
/-- inner1.go:12: `func CodeNotDeclared1` -/
def f1 : FuncDef := ⟨2043, some ⟨2031, s1, (some 2)⟩, ⟨[], (some [⟨[], 2033⟩]), 252⟩, some [.ret 2041 [.unary 2040 true (.compositeLit 2039
  [.basicLit 2038])]], 258, 384⟩
/-- inner1.go:18: `func CodeNotDeclared` -/
def f2 : FuncDef := ⟨2064, some ⟨2052, s2, none⟩, ⟨[], (some [⟨[], 2054⟩]), 446⟩, some [.ret 2062 [.unary 2061 true (.compositeLit 2060 [.basicLit
  2059])]], 452, 577⟩
/-- inner1.go:26: `func Code` -/
def f3 : FuncDef := ⟨2089, some ⟨2078, s3, none⟩, ⟨[], (some [⟨[], 2080⟩]), 729⟩, some [.ret 2087 [.selector 2086 (.ident ⟨2084, s4, (some 5)⟩)
  ⟨2085, s5, none⟩]], 750, 770⟩
/-- inner1.go:27: `func Message` -/
def f4 : FuncDef := ⟨2106, some ⟨2095, s6, none⟩, ⟨[], (some [⟨[], 2097⟩]), 803⟩, some [.ret 2104 [.selector 2103 (.ident ⟨2101, s4, (some 6)⟩)
  ⟨2102, s5, none⟩]], 821, 841⟩
/-- inner1.go:28: `func Details` -/
def f5 : FuncDef := ⟨2123, some ⟨2112, s7, none⟩, ⟨[], (some [⟨[], 2116⟩]), 874⟩, some [.ret 2121 [.ident ⟨2120, s8, none⟩]], 892, 906⟩
/-- inner1.go:29: `func Cause` -/
def f6 : FuncDef := ⟨2138, some ⟨2129, s9, none⟩, ⟨[], (some [⟨[], 2131⟩]), 937⟩, some [.ret 2136 [.ident ⟨2135, s8, none⟩]], 957, 971⟩
/-- inner1.go:30: `func Error` -/
def f7 : FuncDef := ⟨2156, some ⟨2144, s10, none⟩, ⟨[], (some [⟨[], 2146⟩]), 1002⟩, some [.ret 2154 [.call 2153 (.selector 2152 (.ident ⟨2150, s4,
  (some 9)⟩) ⟨2151, s6, none⟩) []]], 1022, 1044⟩
/-- inner1.go:36: `func Code` -/
def f8 : FuncDef := ⟨2181, some ⟨2170, s3, none⟩, ⟨[], (some [⟨[], 2172⟩]), 1214⟩, some [.ret 2179 [.selector 2178 (.ident ⟨2176, s4, (some 12)⟩)
  ⟨2177, s5, none⟩]], 1222, 1242⟩
/-- inner1.go:37: `func Error` -/
def f9 : FuncDef := ⟨2198, some ⟨2187, s10, none⟩, ⟨[], (some [⟨[], 2189⟩]), 1279⟩, some [.ret 2196 [.selector 2195 (.ident ⟨2193, s4, (some 13)⟩)
  ⟨2194, s5, none⟩]], 1286, 1306⟩
/-- The objects of go/ast, in the order of their numbers. -/
def objects : List ObjInfo := [
  ⟨.fun_, 117, (.funcDecl 0)⟩,
  ⟨.typ, 584, .typeSpec⟩,
  ⟨.fun_, 233, (.funcDecl 1)⟩,
  ⟨.typ, 391, .typeSpec⟩,
  ⟨.var, 682, .other⟩,
  ⟨.var, 706, .other⟩,
  ⟨.var, 777, .other⟩,
  ⟨.var, 848, .other⟩,
  ⟨.var, 913, .other⟩,
  ⟨.var, 978, .other⟩,
  ⟨.typ, 1051, .typeSpec⟩,
  ⟨.var, 1161, .other⟩,
  ⟨.var, 1185, .other⟩,
  ⟨.var, 1249, .other⟩]
/-- Types of expressions (`Info.Types`, `Info.Defs`, `Info.Uses`). -/
def typeTable : Tree GoType := (.node (.node (.node (.node (.node (.node (.node Tree.nil 2018 (.signature 6) Tree.nil) 2020 (.named 19) Tree.nil)
  2023 (.signature 6) (.node (.node Tree.nil 2024 (.named 220) Tree.nil) 2025 (.string) Tree.nil)) 2026 (.named 220) (.node (.node (.node Tree.nil
  2027 (.pointer (.named 220)) Tree.nil) 2031 (.signature 6) Tree.nil) 2033 (.named 19) (.node (.node Tree.nil 2036 (.signature 6) Tree.nil) 2037
  (.named 220) Tree.nil))) 2038 (.string) (.node (.node (.node (.node Tree.nil 2039 (.named 220) Tree.nil) 2040 (.pointer (.named 220)) Tree.nil)
  2044 (.named 218) (.node (.node Tree.nil 2046 (.struct 2) Tree.nil) 2049 (.named 218) Tree.nil)) 2052 (.signature 6) (.node (.node (.node Tree.nil
  2054 (.named 19) Tree.nil) 2057 (.signature 6) Tree.nil) 2058 (.named 220) (.node (.node Tree.nil 2059 (.string) Tree.nil) 2060 (.named 220)
  Tree.nil)))) 2061 (.pointer (.named 220)) (.node (.node (.node (.node (.node Tree.nil 2065 (.named 220) Tree.nil) 2066 (.string) Tree.nil) 2067
  (.string) (.node (.node Tree.nil 2070 (.struct 1) Tree.nil) 2073 (.pointer (.named 220)) Tree.nil)) 2074 (.named 220) (.node (.node (.node
  Tree.nil 2075 (.pointer (.named 220)) Tree.nil) 2078 (.signature 11) Tree.nil) 2080 (.string) (.node (.node Tree.nil 2083 (.signature 11)
  Tree.nil) 2084 (.pointer (.named 220)) Tree.nil))) 2085 (.string) (.node (.node (.node (.node Tree.nil 2086 (.string) Tree.nil) 2090 (.pointer
  (.named 220)) Tree.nil) 2091 (.named 220) (.node (.node Tree.nil 2092 (.pointer (.named 220)) Tree.nil) 2095 (.signature 11) Tree.nil)) 2097
  (.string) (.node (.node (.node Tree.nil 2100 (.signature 11) Tree.nil) 2101 (.pointer (.named 220)) Tree.nil) 2102 (.string) (.node (.node
  Tree.nil 2103 (.string) Tree.nil) 2107 (.pointer (.named 220)) Tree.nil))))) 2108 (.named 220) (.node (.node (.node (.node (.node (.node Tree.nil
  2109 (.pointer (.named 220)) Tree.nil) 2112 (.signature 23) Tree.nil) 2114 (.string) (.node (.node Tree.nil 2115 (.string) Tree.nil) 2116 (.map
  (.string) (.string)) Tree.nil)) 2119 (.signature 23) (.node (.node (.node Tree.nil 2120 (.untypedNil) Tree.nil) 2124 (.pointer (.named 220))
  Tree.nil) 2125 (.named 220) (.node (.node Tree.nil 2126 (.pointer (.named 220)) Tree.nil) 2129 (.signature 6) Tree.nil))) 2131 (.named 19) (.node
  (.node (.node (.node Tree.nil 2134 (.signature 6) Tree.nil) 2135 (.untypedNil) Tree.nil) 2139 (.pointer (.named 220)) (.node (.node Tree.nil 2140
  (.named 220) Tree.nil) 2141 (.pointer (.named 220)) Tree.nil)) 2144 (.signature 11) (.node (.node (.node Tree.nil 2146 (.string) Tree.nil) 2149
  (.signature 11) Tree.nil) 2150 (.pointer (.named 220)) (.node (.node Tree.nil 2151 (.signature 11) Tree.nil) 2152 (.signature 11) Tree.nil))))
  2153 (.string) (.node (.node (.node (.node (.node Tree.nil 2157 (.named 226) Tree.nil) 2158 (.string) Tree.nil) 2159 (.string) (.node (.node
  Tree.nil 2162 (.struct 1) Tree.nil) 2165 (.pointer (.named 226)) Tree.nil)) 2166 (.named 226) (.node (.node (.node Tree.nil 2167 (.pointer (.named
  226)) Tree.nil) 2170 (.signature 11) Tree.nil) 2172 (.string) (.node (.node Tree.nil 2175 (.signature 11) Tree.nil) 2176 (.pointer (.named 226))
  Tree.nil))) 2177 (.string) (.node (.node (.node (.node Tree.nil 2178 (.string) Tree.nil) 2182 (.pointer (.named 226)) Tree.nil) 2183 (.named 226)
  (.node (.node Tree.nil 2184 (.pointer (.named 226)) Tree.nil) 2187 (.signature 11) Tree.nil)) 2189 (.string) (.node (.node (.node Tree.nil 2192
  (.signature 11) Tree.nil) 2193 (.pointer (.named 226)) Tree.nil) 2194 (.string) (.node Tree.nil 2195 (.string) Tree.nil))))))
/-- Constant values of expressions. -/
def valueTable : Tree Const := (.node (.node Tree.nil 2025 (.str s11) Tree.nil) 2038 (.str s12) (.node Tree.nil 2059 (.str s12) Tree.nil))
/-- `typeutil.Callee` of call expressions. -/
def calleeTable : Tree Nat := (.node Tree.nil 2153 (222) Tree.nil)
/-- `Info.Uses`. -/
def usesTable : Tree Nat := (.node (.node (.node (.node (.node (.node Tree.nil 2020 (19) Tree.nil) 2024 (220) Tree.nil) 2033 (19) (.node Tree.nil
  2037 (220) Tree.nil)) 2049 (218) (.node (.node (.node Tree.nil 2054 (19) Tree.nil) 2058 (220) Tree.nil) 2067 (16) (.node Tree.nil 2074 (220)
  Tree.nil))) 2080 (16) (.node (.node (.node (.node Tree.nil 2084 (231) Tree.nil) 2085 (105) Tree.nil) 2091 (220) (.node Tree.nil 2097 (16)
  Tree.nil)) 2101 (232) (.node (.node Tree.nil 2102 (105) Tree.nil) 2108 (220) (.node Tree.nil 2114 (16) Tree.nil)))) 2115 (16) (.node (.node (.node
  (.node (.node Tree.nil 2120 (23) Tree.nil) 2125 (220) Tree.nil) 2131 (19) (.node Tree.nil 2135 (23) Tree.nil)) 2140 (220) (.node (.node Tree.nil
  2146 (16) Tree.nil) 2150 (235) (.node Tree.nil 2151 (222) Tree.nil))) 2159 (16) (.node (.node (.node (.node Tree.nil 2166 (226) Tree.nil) 2172
  (16) Tree.nil) 2176 (236) (.node Tree.nil 2177 (105) Tree.nil)) 2183 (226) (.node (.node Tree.nil 2189 (16) Tree.nil) 2193 (237) (.node Tree.nil
  2194 (105) Tree.nil)))))
/-- `Info.Selections`. -/
def selectionTable : Tree (GoType × Nat) := (.node (.node (.node Tree.nil 2086 ((.pointer (.named 220), 105)) Tree.nil) 2103 ((.pointer (.named
  220), 105)) Tree.nil) 2152 ((.pointer (.named 220), 222)) (.node (.node Tree.nil 2178 ((.pointer (.named 226), 105)) Tree.nil) 2195 ((.pointer
  (.named 226), 105)) Tree.nil))
/-- Identifiers that are names of imported packages. -/
def pkgNameTable : Tree GoString := Tree.nil
/-- Method sets. -/
def methodSetTable : Tree (List (GoString × Nat)) := (.node (.node (.node Tree.nil 27 ([(s10, 1386)]) Tree.nil) 95 ([(s10, 20)]) (.node Tree.nil
  1090 ([(s2, 219)]) Tree.nil)) 1091 ([(s2, 219)]) (.node (.node Tree.nil 1101 ([(s9, 224), (s3, 221), (s7, 223), (s10, 225), (s6, 222)]) Tree.nil)
  1131 ([(s3, 227), (s10, 228)]) Tree.nil))
/-- Types implementing `error`. -/
def implErrorTable : Tree Unit := (.node (.node (.node Tree.nil 27 (()) Tree.nil) 95 (()) Tree.nil) 1101 (()) (.node Tree.nil 1131 (()) Tree.nil))
/-- Types implementing `error` with a code. -/
def implCodeTable : Tree Unit := (.node (.node Tree.nil 1101 (()) Tree.nil) 1131 (()) Tree.nil)
/-- Types implementing `error` with a cause. -/
def implCauseTable : Tree Unit := (.node Tree.nil 1101 (()) Tree.nil)
/-- Signatures: types of parameters, variadic, number of results. -/
def sigTable : Tree (List GoType × Bool × Nat) := (.node (.node Tree.nil 6 (([], false, 1)) Tree.nil) 11 (([], false, 1)) (.node Tree.nil 23 (([],
  false, 1)) Tree.nil))
/-- Tuples of results. -/
def tupleTable : Tree (List GoType) := Tree.nil
/-- Fields of structs. -/
def structTable : Tree (List (GoString × GoType)) := (.node (.node Tree.nil 1 ([(s5, .string)]) Tree.nil) 2 ([]) Tree.nil)
/-- Underlying types of named types. -/
def underlyingTable : Tree GoType := (.node (.node (.node Tree.nil 19 (.interface 5) Tree.nil) 218 (.struct 2) Tree.nil) 220 (.struct 1) (.node
  Tree.nil 226 (.struct 1) Tree.nil))
/-- Which types implement which interfaces. -/
def implTable : Tree (Tree Unit) := (.node Tree.nil 5 ((.node (.node (.node Tree.nil 27 (()) Tree.nil) 95 (()) Tree.nil) 1101 (()) (.node Tree.nil
  1131 (()) Tree.nil))) Tree.nil)
/-- Comments at return statements (`ast.NewCommentMap`). -/
def commentTable : Tree (List (List GoString)) := (.node (.node Tree.nil 2028 ([[s13]]) Tree.nil) 2041 ([[s14]]) (.node Tree.nil 2062 ([[s15]])
  Tree.nil))
/-- Function declarations. -/
def declTable : Tree DeclInfo := (.node (.node (.node (.node Tree.nil 0 (⟨s0, true, none, some (CommentText.text [s16, s17, s18, s17, s19]), 2030,
  216, []⟩) Tree.nil) 1 (⟨s1, true, none, none, 2043, 217, []⟩) Tree.nil) 2 (⟨s2, true, some 2049, none, 2064, 219, []⟩) (.node (.node Tree.nil 3
  (⟨s3, true, some 2075, none, 2089, 221, [⟨2073, s4, (some 5)⟩]⟩) Tree.nil) 4 (⟨s6, true, some 2092, none, 2106, 222, [⟨2090, s4, (some 6)⟩]⟩)
  Tree.nil)) 5 (⟨s7, true, some 2109, none, 2123, 223, [⟨2107, s4, (some 7)⟩]⟩) (.node (.node (.node Tree.nil 6 (⟨s9, true, some 2126, none, 2138,
  224, [⟨2124, s4, (some 8)⟩]⟩) Tree.nil) 7 (⟨s10, true, some 2141, none, 2156, 225, [⟨2139, s4, (some 9)⟩]⟩) Tree.nil) 8 (⟨s3, true, some 2167,
  none, 2181, 227, [⟨2165, s4, (some 12)⟩]⟩) (.node Tree.nil 9 (⟨s10, true, some 2184, none, 2198, 228, [⟨2182, s4, (some 13)⟩]⟩) Tree.nil)))
/-- Named interfaces. -/
def interfaceTable : Tree Unit := (.node Tree.nil 19 (()) Tree.nil)
/-- Methods of named types. -/
def methodNameTable : Tree (List GoString) := (.node (.node Tree.nil 218 ([s2]) Tree.nil) 220 ([s3, s6, s7, s9, s10]) (.node Tree.nil 226 ([s3,
  s10]) Tree.nil))
/-- Objects of interface methods. -/
def methodObjTable : Tree Nat := Tree.nil
/-- Syntax and types of the package, and the facts exported by the packages it imports. -/
def env : Env where
  funcs := [f0, f1, f2, f3, f4, f5, f6, f7, f8, f9]
  objects := objects
  typeOf := fun n => (typeTable.find n).getD (.other 0)
  value := valueTable.find
  callee := calleeTable.find
  uses := usesTable.find
  selection := selectionTable.find
  pkgName := pkgNameTable.find
  funcObj := fun f => ((declTable.find f).map (·.obj)).getD 0
  implError := fun t => has implErrorTable t
  implCode := fun t => has implCodeTable t
  sigResults := fun n => ((sigTable.find n).map (·.2.2)).getD 0
  methodSet := fun t name => ((typeKey t).bind methodSetTable.find).bind fun l => lookup name l
  functions := fun _ => none
  methods := fun _ => []
  comments := fun n => ((commentTable.find n).getD []).map CommentText.text
  isPrint := fun r => 32 ≤ r && r < 127
  facts := noFacts
/-- The package. -/
def package : Package where
  env := env
  decls := ⟨fun f => ((declTable.find f).map (·.name)).getD [], fun f => ((declTable.find f).map (·.exported)).getD false,
    fun f => (declTable.find f).bind (·.recv), fun f => (declTable.find f).bind (·.doc), fun t => has implCauseTable t,
    fun f => ((declTable.find f).map (·.pos)).getD 0⟩
  types := ⟨fun f => (((declTable.find f).bind (·.recv)).bind typeTable.find).getD (.other 0),
    fun f => ((declTable.find f).map (·.recvNames)).getD [], fun o => (interfaceTable.find o).isSome,
    fun o => (methodNameTable.find o).getD []⟩
  funcs := [0, 1, 2, 3, 4, 5, 6, 7, 8, 9]
  specs := [⟨2048, .named 218, some []⟩, ⟨2072, .named 220, some [[s5]]⟩, ⟨2164, .named 226, some [[s5]]⟩]
  ifaces := []
  methodObj := fun n => (methodObjTable.find n).getD 0
  conv := ⟨fun o => (underlyingTable.find o).getD (.other 0), fun n => ((sigTable.find n).map (·.1)).getD [],
    fun n => ((sigTable.find n).map (·.2.1)).getD false, fun n => (tupleTable.find n).getD [], fun n => (structTable.find n).getD [],
    fun t n => ((implTable.find n).map fun tr => has tr t).getD false⟩
  top := [
    .func 0,
    .func 1,
    .node (.other 2048 [.other 2047 [.ident ⟨2044, s20, (some 3)⟩, .other 2046 [.other 2045 []]]]),
    .func 2,
    .node (.other 2072 [.other 2071 [.ident ⟨2065, s21, (some 1)⟩, .other 2070 [.other 2069 [.other 2068 [.ident ⟨2066, s5, (some 4)⟩, .ident ⟨2067,
  s22, none⟩]]]]]),
    .func 3,
    .func 4,
    .func 5,
    .func 6,
    .func 7,
    .node (.other 2164 [.other 2163 [.ident ⟨2157, s23, (some 10)⟩, .other 2162 [.other 2161 [.other 2160 [.ident ⟨2158, s5, (some 11)⟩, .ident
  ⟨2159, s22, none⟩]]]]]),
    .func 8,
    .func 9]
/-- The run, in one order. -/
def result : Except Stop Outcome := runVerify package Check.source true
/-- What is expected.  The comments in the package say (with facts as `object: fact`):
```
inner1.go:8: ExportedFunc1: ErrorCodes: hello-error
inner1.go:12: function "CodeNotDeclared1" is exported, but does not declare any error codes
inner1.go:18: function "CodeNotDeclared" is exported, but does not declare any error codes
inner1.go:22: Inner1Error: ErrorType{Field:{Name:"TheCode", Position:0}, Codes:}
inner1.go:32: Inner1UnusedError: ErrorType{Field:{Name:"TheCode", Position:0}, Codes:}
``` -/
def expected : Check.Expected where
  tags := []
  ifaces := []
  signatures := []
  claims := [{ at_ := 2043, msg := Serum.ClaimMsg.exportedUndeclared b!"CodeNotDeclared1" },
    { at_ := 2064, msg := Serum.ClaimMsg.exportedUndeclared b!"CodeNotDeclared" }]
  bodies := []
  mismatches := []
  conversions := []
  codes := [(216, [b!"hello-error"])]
  ctors := []
  errorTypes := [(220, { codes := [], field := some { name := b!"TheCode", position := 0 } }),
    (226, { codes := [], field := some { name := b!"TheCode", position := 0 } })]
  interfaces := []
  objects := 1385

/-- What functions call, and which literals they visit. -/
def graph : Check.Graph :=
  [([], []), ([], []), ([], []), ([], []), ([], []), ([], []), ([], []), ([4], []), ([], []), ([], [])]

theorem checked : Check.run package true expected graph = true := by decide +kernel

theorem imports : Check.Tables package.env.facts := tables_noFacts

theorem exported : Check.Tables (Check.factsOf result) := Check.tables checked imports

/-- The facts known before a run: those exported by some run over the imported packages. -/
def Imported (F : Facts) : Prop :=
  F = noFacts

/-- The facts known after a run. -/
def Exports (F : Facts) : Prop := Check.Exports package Imported true F

theorem imports_same (F : Facts) (h : Imported F) : Props.Run.SameFacts package.env.facts F := by
  obtain rfl := h
  exact (.refl _)

theorem exports_same {F : Facts} (h : Exports F) : Props.Run.SameFacts (Check.factsOf result) F :=
  Check.exports_same checked imports imports_same h

/-- **C54**: every run over the package has the expected result. -/
theorem always : Check.Always package Imported true expected :=
  Check.always checked imports imports_same

/-- For the nodes with diagnostics: file, line, and type of node. -/
def nodes : Tree (GoString × Nat × GoString) :=
  (.node (.node Tree.nil 2043 ((b!"inner1.go", 12, b!"FuncDecl")) Tree.nil) 2064 ((b!"inner1.go", 18, b!"FuncDecl")) Tree.nil)

/-- The names of the objects named in diagnostics other than by identifiers. -/
def objectNames : Tree GoString :=
  Tree.nil

def names : Names where
  object := fun o => (objectNames.find o).getD []
  kind := fun n => ((nodes.find n).map fun p => p.2.2).getD []

def place (n : NodeId) : GoString × Nat := ((nodes.find n).map fun p => (p.1, p.2.1)).getD ([], 0)

/-- What is printed: file, line and text. -/
def lines : List Check.Line := [(b!"inner1.go", 12, b!"function \"CodeNotDeclared1\" is exported, but does not declare any error codes"),
    (b!"inner1.go", 18, b!"function \"CodeNotDeclared\" is exported, but does not declare any error codes")]

/-- **C54**: for every run over the package, these lines are printed. -/
theorem prints : Check.Prints package Imported true names place lines :=
  Check.prints always (by decide +kernel)

end Serum.Testdata.dotimportInner1
