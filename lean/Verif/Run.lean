import Verif.ErrorTypes
import Verif.Conversions

/-!
# A whole run over a package (`analysis/analyse.go:123-163`)

`runVerify` puts the phases together.  Everything the Go program leaves open — the order in which maps are
iterated — is in the `Schedule`.
-/

namespace Serum

/-- A package as the analyzer gets it: the parsed and type checked source, and the facts imported from the
packages it depends on (`env.facts`).  `env.functions` and `env.methods` are not read. -/
structure Package where
  env : Env
  decls : Decls
  types : TypeDecls
  /-- the function declarations, in the order of the source -/
  funcs : List FnId
  /-- the type declarations, in the order of the source -/
  specs : List TypeSpec
  /-- the declared interfaces, in the order of the source -/
  ifaces : List IfaceDecl
  /-- `TypesInfo.Defs[ident]` for the names of interface methods -/
  methodObj : NodeId → Object
  conv : Conv.Info
  /-- all declarations, in the order of the source -/
  top : List Conv.TopDecl

/-- The orders in which the Go runtime iterates over maps. -/
structure Schedule where
  /-- `forEach` (function_lookup.go:60-70) -/
  functions : List FnId → List FnId
  /-- `embeddingInterfaces` (interfaces_collect.go:163) -/
  ifaceNames : Table ErrorIface → List GoString
  /-- method tables of interfaces (interfaces_collect.go:210, 223, 246) -/
  tables : {α : Type} → Table α → Table α
  ifaceMatch : MatchOrders
  /-- `interfaces` (interfaces_collect.go:244) -/
  ifaceExport : Table ErrorIface → Table ErrorIface
  /-- `funcClaims`: analyse.go:384, 144, 411 -/
  ctorExport : List (FnId × FuncCodes) → List (FnId × FuncCodes)
  claims : List (FnId × FuncCodes) → List (FnId × FuncCodes)
  codesExport : List (FnId × FuncCodes) → List (FnId × FuncCodes)
  claimMatch : FnId → MatchOrders
  conv : Conv.Orders

/-- What a run leaves behind: the exported facts (together with the imported ones), and the diagnostics of
each phase. -/
structure Outcome where
  facts : Facts
  /-- `findAndTagErrorTypes` -/
  tags : List TagDiag
  /-- `findErrorReturningInterfaces` -/
  ifaces : List IfaceDiag
  /-- `findErrorReturningFunctions` -/
  signatures : List ClaimDiag
  /-- `findClaimedErrorCodes` -/
  claims : List ClaimDiag
  /-- what is reported while looking at function bodies, with the function -/
  bodies : List (FnId × Diag)
  /-- analyse.go:457-463: "function %q has a mismatch of declared and actual error codes: …" -/
  mismatches : List (FnId × GoString)
  /-- `findConversionsToErrorReturningInterfaces` -/
  conversions : List Conv.Report

namespace Package

/-- The functions which `collectFunctions` keeps: `functions` has one entry per name, the last declaration
with it (`init`, `_`). -/
def collected (P : Package) : List FnId :=
  P.funcs.filter fun f => (P.decls.recv f).isSome || (collectFunctions P.decls P.funcs).1 (P.decls.name f) == some f

/-- The environment after `collectFunctions` (analyse.go:124). -/
def start (P : Package) : Env :=
  { P.env with functions := (collectFunctions P.decls P.funcs).1, methods := (collectFunctions P.decls P.funcs).2 }

/-- The environment with the facts known at some point of the run. -/
def at_ (P : Package) (facts : Facts) : Env := { P.start with facts := facts }

/-- What interface collection reads. -/
def ifaceInfo (P : Package) (S : Schedule) : Interfaces.Info :=
  ⟨P.decls.implCause, P.methodObj, S.tables, S.ifaceMatch⟩

/-- How deep variables can be followed (`Verif/AnalyseFuel.lean`: this is enough). -/
def depth (P : Package) : Nat := P.env.objects.length + 4

/-- What is done in the bodies of functions, with the facts known at some point. -/
def plan (P : Package) (facts : Facts) : FnId → BodyPlan := Analyse.plan (P.at_ facts) P.depth

/-- The functions that can come up, with the facts known at some point. -/
def functions (P : Package) (facts : Facts) : List FnId :=
  P.funcs ++ List.range P.env.funcs.length ++ (List.range P.env.funcs.length).flatMap fun f => (P.plan facts f).targets

end Package

/-- analyse.go:145-152: the mismatches reported. -/
def mismatches (o : FnId → MatchOrders) (claims : List (FnId × FuncCodes)) (found : List (FnId × CodeSet)) :
    List (FnId × GoString) :=
  (claims.zip found).filterMap fun (claim, result) =>
    (reportIfCodesDoNotMatch (o claim.1) result.2 claim.2.codes).map fun text => (claim.1, text)

/-- analyse.go:123-163 `runVerify`; `strict` is the command line flag.  (Reporting a mismatch does not
influence the search, so the reports are collected after the loop.) -/
def runVerify (P : Package) (S : Schedule) (strict : Bool) : Except Stop Outcome := do
  let (facts, tags) ← findAndTagErrorTypes P.start P.decls P.types P.depth P.specs P.env.facts
  let (ifaces, ifaceDiags) ←
    Interfaces.find (P.at_ facts) (P.ifaceInfo S) P.ifaces.length S.ifaceNames P.ifaces
  let facts := Interfaces.exportFacts (P.ifaceInfo S) (S.ifaceExport ifaces) facts
  let (funcs, signatures) ← findErrorReturningFunctions (P.at_ facts) (S.functions P.collected)
  let (claims, claimDiags) := findClaimedErrorCodes (P.at_ facts) P.decls strict funcs
  let facts := exportErrorConstructorFacts P.start (S.ctorExport claims) facts
  let order := S.claims claims
  let depth := (P.functions facts).length + 1
  let (found, st) ← Search.findAll (P.plan facts) depth (order.map Prod.fst) Search.start
  let facts' := exportErrorCodeFacts P.start (S.codesExport claims) facts
  let (reports, st) ← Conv.runSteps (P.at_ facts') S.conv (P.plan facts') (depth + (P.functions facts').length)
    (Conv.steps (P.at_ facts') P.conv P.top) st
  pure ⟨facts', tags, ifaceDiags, signatures, claimDiags, st.diags, mismatches S.claimMatch order found, reports⟩

end Serum
