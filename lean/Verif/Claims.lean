import Verif.Ast
import Verif.ErrorDocs
import Verif.Report
import Verif.Extract

/-!
# Functions and their declarations (`analysis/function_lookup.go`, `analysis/analyse.go:213-463`)

Which functions are analysed, what they declare, and which facts are exported for them.
-/

namespace Serum

/-- What the analyzer reads about function declarations, besides `Env`. -/
structure Decls where
  /-- `funcDecl.Name.Name`. -/
  name : FnId → GoString
  /-- `funcDecl.Name.IsExported()`. -/
  exported : FnId → Bool
  /-- `funcDecl.Recv.List[0].Type` if there is exactly one receiver (analyse.go:214-216 `isMethod`). -/
  recv : FnId → Option NodeId
  /-- `funcDecl.Doc.Text()`, `none` for a nil comment group. -/
  doc : FnId → Option GoString
  /-- `types.Implements(t, tReeErrorWithCause)`. -/
  implCause : GoType → Bool
  /-- `funcDecl.Pos()`. -/
  pos : FnId → NodeId

/-- The messages of this phase. -/
inductive ClaimMsg where
  /-- analyse.go:304 "error should be returned as the last argument" -/
  | errorNotLast
  /-- analyse.go:321 "function %q has odd docstring: %s" -/
  | oddDocstring (function : GoString) (e : DocError)
  /-- analyse.go:370 "error code parameter %q has to be of type string" -/
  | paramNotString (param : GoString)
  /-- analyse.go:378 "declared error code parameter %q could not be found in parameter list" -/
  | paramNotFound (param : GoString)
  /-- analyse.go:343 "function %q is exported, but does not declare any error codes" -/
  | exportedUndeclared (function : GoString)
deriving DecidableEq, Repr

/-- A diagnostic of this phase: the node it is reported for, and its message. -/
structure ClaimDiag where
  at_ : NodeId
  msg : ClaimMsg
deriving DecidableEq, Repr

/-- analyse.go:84-86 `funcCodeParam`. -/
structure FuncCodeParam where
  ident : Ident
  position : Nat
deriving DecidableEq, Repr

/-- analyse.go:79-82 `funcCodes`. -/
structure FuncCodes where
  codes : CodeSet
  param : Option FuncCodeParam
deriving DecidableEq, Repr

/-- function_lookup.go:44-49: adding one declaration to `functions` and `methods`. -/
def addFunction (d : Decls) (lookup : (GoString → Option FnId) × (GoString → List FnId)) (f : FnId) :
    (GoString → Option FnId) × (GoString → List FnId) :=
  if (d.recv f).isNone then ((fun n => if n = d.name f then some f else lookup.1 n), lookup.2)
  else (lookup.1, fun n => if n = d.name f then lookup.2 n ++ [f] else lookup.2 n)

/-- function_lookup.go:32-56 `collectFunctions`, for the declarations of the package in order. -/
def collectFunctions (d : Decls) (decls : List FnId) : (GoString → Option FnId) × (GoString → List FnId) :=
  decls.foldl (addFunction d) ((fun _ => none), (fun _ => []))

/-- analyse.go:301-306: the diagnostics for errors returned as non-last result, one per result field. -/
def misplacedErrors (env : Env) (results : List Field) : List ClaimDiag :=
  results.filterMap fun r => if env.implError (env.typeOf r.typ) then some ⟨r.typ, .errorNotLast⟩ else none

/-- analyse.go:291-311 `checkFunctionReturnsError`.  (`Results` of `func() ()` is a non-nil empty list.)
Diagnostics for a result field are identified by the node of its type. -/
def checkFunctionReturnsError (env : Env) (type : FuncType) : Except Stop (Bool × List ClaimDiag) :=
  match type.results with
  | none => .ok (false, [])
  | some results =>
    match results.getLast? with
    | none => .error (.panic "analyse.go:297: index out of range [-1]")
    | some lastResult =>
      if env.implError (env.typeOf lastResult.typ) then .ok (true, [])
      else .ok (false, misplacedErrors env results)

/-- analyse.go:269-287 `findErrorReturningFunctions`; `fs` is the order in which `lookup.forEach`
(function_lookup.go:60-70) happens to iterate over its maps. -/
def findErrorReturningFunctions (env : Env) : List FnId → Except Stop (List FnId × List ClaimDiag)
  | [] => .ok ([], [])
  | f :: fs => do
    let (ok, ds) ← checkFunctionReturnsError env (env.func f).type
    let (rest, ds') ← findErrorReturningFunctions env fs
    pure (if ok then f :: rest else rest, ds ++ ds')

/-- analyse.go:362-366: the loop over the names of one parameter group: the position counted so far, or
the first name that matches and its position. -/
def findParamName (name : GoString) : Nat → List Ident → Nat ⊕ FuncCodeParam
  | pos, [] => .inl pos
  | pos, i :: is => if i.name ≠ name then findParamName name (pos + 1) is else .inr ⟨i, pos⟩

/-- analyse.go:360-376: the loop over the parameter groups. -/
def findParamIn (name : GoString) : Nat → List Field → Option FuncCodeParam
  | _, [] => none
  | pos, g :: gs =>
    match findParamName name pos g.names with
    | .inl pos => findParamIn name pos gs
    | .inr p => some p

/-- analyse.go:355-380 `findErrorCodeParamIdent`; `isString` is the test of line 368-369.  The result is
`none` for `(nil, false)`. -/
def findErrorCodeParamIdent (env : Env) (type : FuncType) (typePos : NodeId) (name : GoString) :
    Option (Option FuncCodeParam) × List ClaimDiag :=
  if name = [] then (some none, [])
  else
    match findParamIn name 0 type.params with
    | none => (none, [⟨typePos, .paramNotFound name⟩])
    | some p =>
      if env.typeOf p.ident.id = .string then (some (some p), [])
      else (none, [⟨p.ident.id, .paramNotString name⟩])

/-- analyse.go:334-339: `Cause` methods of error types need not declare codes. -/
def isCauseMethod (env : Env) (d : Decls) (f : FnId) : Bool :=
  match d.recv f with
  | none => false
  | some r => d.implCause (env.typeOf r) && d.name f == b!"Cause"

/-- analyse.go:319-348: what one function claims, if anything, and the diagnostics emitted. -/
def claimOf (env : Env) (d : Decls) (strict : Bool) (f : FnId) : Option FuncCodes × List ClaimDiag :=
  match findErrorDocs (d.doc f) with
  | .error e => (none, [⟨d.pos f, .oddDocstring (d.name f) e⟩])
  | .ok r =>
    match findErrorCodeParamIdent env (env.func f).type (d.pos f) r.param with
    | (none, ds) => (none, ds)
    | (some param, ds) =>
      if r.codes.length = 0 ∧ r.none = false ∧ param = none then
        if isCauseMethod env d f then (none, ds)
        else (none, ds ++ if strict && d.exported f then [⟨d.pos f, .exportedUndeclared (d.name f)⟩] else [])
      else (some ⟨r.codes, param⟩, ds)

/-- analyse.go:316-351 `findClaimedErrorCodes`: the entries of the resulting map. -/
def findClaimedErrorCodes (env : Env) (d : Decls) (strict : Bool) :
    List FnId → List (FnId × FuncCodes) × List ClaimDiag
  | [] => ([], [])
  | f :: fs =>
    let (claim, ds) := claimOf env d strict f
    let (claims, ds') := findClaimedErrorCodes env d strict fs
    ((match claim with | some c => (f, c) :: claims | none => claims), ds ++ ds')

/-- analyse.go:383-407 `exportErrorConstructorFacts`: `ExportObjectFact` for each claim with a
parameter, in the order in which the map is iterated. -/
def exportErrorConstructorFacts (env : Env) (claims : List (FnId × FuncCodes)) (facts : Facts) : Facts :=
  claims.foldl (fun facts (f, c) =>
    match c.param with
    | some p => { facts with ctor := fun o => if o = env.funcObj f then some p.position else facts.ctor o }
    | none => facts) facts

/-- analyse.go:410-432 `exportErrorCodeFacts`. -/
def exportErrorCodeFacts (env : Env) (claims : List (FnId × FuncCodes)) (facts : Facts) : Facts :=
  claims.foldl (fun facts (f, c) =>
    { facts with codes := fun o => if o = env.funcObj f then some c.codes else facts.codes o }) facts

/-- analyse.go:457-463 `reportIfCodesDoNotMatch`: the text of the report, if there is one. -/
def reportIfCodesDoNotMatch (o : MatchOrders) (found claimed : CodeSet) : Option GoString :=
  match checkIfErrorCodesMatch o found claimed with
  | (true, _) => none
  | (false, text) => some text

end Serum
