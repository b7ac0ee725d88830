import Verif.Analyse
import Verif.Claims

/-!
# Error types and their `Code` methods (`analysis/tag_error_types.go`)

Which constant codes and which field a `Code() string` method can return.
-/

namespace Serum

/-- What the analyzer reads about types and receivers in this phase, besides `Env`. -/
structure TypeDecls where
  /-- `pass.TypesInfo.TypeOf(funcDecl.Recv.List[0].Type)` of a method. -/
  recvType : FnId → GoType
  /-- `funcDecl.Recv.List[0].Names` of a method. -/
  recvNames : FnId → List Ident
  /-- `namedErr.Underlying().(*types.Interface)`, by the type name. -/
  isInterface : Object → Bool
  /-- `namedErr.Method(i).Name()`, for all `i`. -/
  methodNames : Object → List GoString

/-- An `*ast.TypeSpec` inside an `*ast.GenDecl`. -/
structure TypeSpec where
  /-- The enclosing declaration, for which problems are reported. -/
  genDecl : NodeId
  /-- `pass.TypesInfo.Defs[typeSpec.Name].Type()`. -/
  typ : GoType
  /-- The names of each field declaration if `Type` is a struct type (`[]` for embedded fields). -/
  fields : Option (List (List GoString))

/-- The messages of this phase. -/
inductive TagMsg where
  /-- tag_error_types.go:74, 88 "type is an invalid error type" -/
  | invalidType
  /-- tag_error_types.go:98 "found no method "Code() string"" -/
  | noCodeMethod
  /-- tag_error_types.go:103 "type %q is an invalid error type: could not find any error codes" -/
  | noCodes (type : Object)
  /-- tag_error_types.go:222 "returned field %q is not a valid error code field ..." -/
  | notField (field : GoString)
  /-- tag_error_types.go:250 with the error of getErrorCodeFromConstant -/
  | badConstant (e : ConstError)
  /-- tag_error_types.go:264 "only single field allowed: ..." -/
  | secondField (field previous : GoString)
  /-- tag_error_types.go:278 "function %q should always return a string constant or a single field" -/
  | notConstantOrField
  /-- tag_error_types.go:301 "error code variable may not be a parameter, receiver or global variable" -/
  | outOfScope
  /-- tag_error_types.go:305 "unsupported: assigning result of function call to variable ..." -/
  | destructured (variable_ : GoString)
  /-- A report about an assignment to the code field in a method (analyse.go:906-924). -/
  | assignment (m : Msg)
deriving DecidableEq, Repr

/-- A diagnostic of this phase. -/
structure TagDiag where
  at_ : NodeId
  msg : TagMsg
deriving DecidableEq, Repr

/-- tag_error_types.go:164-173: the mutable part of `codeMethodAnalysis`, and the diagnostics emitted. -/
structure TagState where
  visited : List ObjId
  codes : CodeSet
  field : Option Ident
  diags : List TagDiag

namespace CodeMethod

/-- `pass.ReportRangef`. -/
def report (st : TagState) (at_ : NodeId) (m : TagMsg) : TagState := { st with diags := st.diags ++ [⟨at_, m⟩] }

/-- tag_error_types.go:257-260: the selected identifier, if the expression selects from the receiver. -/
def receiverField (receiver : Option Ident) (e : Node) : Option Ident :=
  match e, receiver with
  | .selector _ x sel, some r =>
    match x.unparen with
    | .ident i => if i.obj = r.obj then some sel else none
    | _ => none
  | _, _ => none

/-- tag_error_types.go:236-279 `analyseReturnedExpression`; `taint` is `analyseReturnedIdentTaint`. -/
def returnedExpression (env : Env) (receiver : Option Ident)
    (taint : Ident → TagState → Except Stop TagState) (node : Node) (st : TagState) :
    Except Stop TagState :=
  match env.value node.unparen.id with
  | some v =>
    match getErrorCodeFromConstant env.isPrint v with
    | some value => .ok (if value ≠ [] then { st with codes := st.codes.add value } else st)
    | none => .ok (report st node.id (.badConstant (constantError env.isPrint v)))
  | none =>
    match receiverField receiver node.unparen with
    | some sel =>
      match st.field with
      | none => .ok { st with field := some sel }
      | some g => .ok (if g.name ≠ sel.name then report st node.id (.secondField sel.name g.name) else st)
    | none =>
      match node.unparen with
      | .ident i => taint i st
      | _ => .ok (report st node.id .notConstantOrField)

/-- tag_error_types.go:308-310: the loop over the assigned expressions. -/
def returnedExpressions (expr : Node → TagState → Except Stop TagState) :
    List Node → TagState → Except Stop TagState
  | [], st => .ok st
  | e :: es, st => do
    let st ← expr e st
    returnedExpressions expr es st

/-- tag_error_types.go:296-311 `analyseReturnedIdentTaint`; the first number bounds the recursion
depth. -/
def identTaint (env : Env) (f : FnId) (body : List Node) (receiver : Option Ident) (fuel : Nat) :
    Nat → Ident → TagState → Except Stop TagState
  | 0, _, _ => .error .outOfFuel
  | depth + 1, ident, st => do
    let t ← Taint.run env (env.func f) body none fuel st.visited ident
    returnedExpressions (returnedExpression env receiver (identTaint env f body receiver fuel depth))
      t.expressions
      { st with
        visited := t.visited
        diags := st.diags ++ t.outOfScope.map (fun i => ⟨i.id, .outOfScope⟩) ++
          t.destructs.map (fun d => ⟨d.source.id, .destructured d.target.name⟩) }

/-- tag_error_types.go:281-294 `analyseNamedReturn`: the identifier of the named result. -/
def namedResult (type : FuncType) : Except Stop Ident :=
  match type.results with
  | some [field] =>
    match field.names with
    | [i] => .ok i
    | _ => .error (.panic "tag_error_types.go:289: should be unreachable: we already know that the method returns a single named value.")
  | _ => .error (.panic "tag_error_types.go:284: should be unreachable: we already know that the method returns a single value.")

/-- tag_error_types.go:198-211: one return statement. -/
def returnStmt (env : Env) (f : FnId) (body : List Node) (receiver : Option Ident) (fuel : Nat)
    (results : List Node) (st : TagState) : Except Stop TagState :=
  match results with
  | [] => do
    let i ← namedResult (env.func f).type
    identTaint env f body receiver fuel fuel i st
  | [e] => returnedExpression env receiver (identTaint env f body receiver fuel fuel) e st
  | _ => .error (.panic "tag_error_types.go:207: should be unreachable: we already know that the method returns a single value.")

/-- tag_error_types.go:199-200: whether `ast.Inspect` looks into a node. -/
def intoCode : Node → Bool
  | .funcLit .. => false
  | _ => true

/-- tag_error_types.go:197-211: the callback of `ast.Inspect`, for the nodes in order. -/
def returnStmts (env : Env) (f : FnId) (body : List Node) (receiver : Option Ident) (fuel : Nat) :
    List Node → TagState → Except Stop TagState
  | [], st => .ok st
  | .ret _ results :: ns, st => do
    let st ← returnStmt env f body receiver fuel results st
    returnStmts env f body receiver fuel ns st
  | _ :: ns, st => returnStmts env f body receiver fuel ns st

/-- tag_error_types.go:321-333: the loops of `getFieldPosition`; `i` counts fields. -/
def fieldPositionLoop (name : GoString) : Nat → List (List GoString) → Option Nat
  | _, [] => none
  | i, ns :: gs =>
    if ns = [] then fieldPositionLoop name (i + 1) gs
    else match ns.findIdx? (fun n => n == name) with
      | some k => some (i + k)
      | none => fieldPositionLoop name (i + ns.length) gs

/-- tag_error_types.go:314-336 `getFieldPosition`; Go's -1 is `none`. -/
def getFieldPosition (fields : Option (List (List GoString))) (name : GoString) : Option Nat :=
  match fields with
  | none => none
  | some gs => fieldPositionLoop name 0 gs

/-- tag_error_types.go:213-234: the outcome of `analyseCodeMethod`. Simplified: in Go the order of the code
slice is the iteration order of a map (`Slice()`); here it is the order of discovery. Every use of the slice
turns it into a set or sorts it. -/
def outcome (fields : Option (List (List GoString))) (pos : NodeId) (st : TagState) :
    Option ErrorType × List TagDiag :=
  let field := st.field.bind fun i => (getFieldPosition fields i.name).map fun p => (⟨i.name, p⟩ : ErrorCodeField)
  let ds := match st.field with
    | none => []
    | some i => if getFieldPosition fields i.name = none then [(⟨pos, .notField i.name⟩ : TagDiag)] else []
  (if st.codes.length = 0 ∧ field = none then none else some ⟨st.codes, field⟩, st.diags ++ ds)

/-- tag_error_types.go:187-234 `analyseCodeMethod`; `pos` is `funcDecl.Pos()`.  (A declaration without
body contains no return statement.) -/
def analyse (env : Env) (fields : Option (List (List GoString))) (f : FnId) (pos : NodeId)
    (receiver : Option Ident) (fuel : Nat) : Except Stop (Option ErrorType × List TagDiag) := do
  let body := (env.func f).body.getD []
  let st ← returnStmts env f body receiver fuel (Node.inspectList intoCode body) ⟨[], [], none, []⟩
  pure (outcome fields pos st)

end CodeMethod

/-- tag_error_types.go:158-162 `errorTypesSubset`. -/
def errorTypesSubset (t₁ t₂ : GoType) : Bool :=
  t₁ = t₂ || (match t₂ with | .pointer e => t₁ = e | _ => false)

/-- tag_error_types.go:132-155 `getCodeFuncFromError`: the method and its named receiver. -/
def getCodeFuncFromError (env : Env) (td : TypeDecls) (err : GoType) : Option (FnId × Option Ident) :=
  match (env.methods b!"Code").find? (fun m => errorTypesSubset (td.recvType m) err) with
  | none => none
  | some m =>
    match td.recvNames m with
    | [r] => some (m, some r)
    | _ => some (m, none)

/-- tag_error_types.go:370-395 `collectMethodsForErrorType`. -/
def collectMethodsForErrorType (env : Env) (td : TypeDecls) (err : GoType) : List FnId :=
  match getNamedType err with
  | none => []
  | some o => (td.methodNames o).flatMap fun name =>
    (env.methods name).filter fun m => errorTypesSubset (td.recvType m) err

/-- What a plan without calls computes: the code set and the diagnostics, or a panic.  (The plans of
assignments to code fields are of this kind.) -/
def planResult : BodyPlan → Except Stop (CodeSet × List Diag)
  | .codes s => .ok (s, [])
  | .report d => .ok ([], [d])
  | .panic loc => .error (.panic loc)
  | .union a b => do
    let (s, ds) ← planResult a
    let (t, es) ← planResult b
    pure (CodeSet.union s t, ds ++ es)
  | .minus a t => do
    let (s, ds) ← planResult a
    pure (CodeSet.diff s t, ds)
  | .call _ | .visit _ => .error (.panic "no calls in field assignments")

/-- analyse.go:861-871 `findCodesAssignedToErrorCodeField` with a given error type, for the nodes found
by `ast.Inspect`. -/
def methodAssignments (env : Env) (f : FnId) (et : ErrorType) (receiver : ObjId) : List Node → BodyPlan
  | [] => .codes []
  | .assign _ lhs rhs :: ns =>
    .union (Analyse.fieldAssignment env f receiver lhs.length rhs (some et) 0 lhs)
      (methodAssignments env f et receiver ns)
  | _ :: ns => methodAssignments env f et receiver ns

/-- tag_error_types.go:349-360: the contribution of one method. -/
def methodPlan (env : Env) (td : TypeDecls) (et : ErrorType) (m : FnId) : BodyPlan :=
  match td.recvNames m with
  | [r] =>
    match r.obj with
    | some o => methodAssignments env m et o (Node.inspectList Analyse.intoFields ((env.func m).body.getD []))
    | none => .codes []
  | _ => .codes []

/-- tag_error_types.go:340-367 `analyseMethodsOfErrorType`: the updated error type. -/
def analyseMethodsOfErrorType (env : Env) (td : TypeDecls) (et : ErrorType) (err : GoType) :
    Except Stop (ErrorType × List Diag) :=
  if et.field = none then .ok (et, [])
  else do
    let (assigned, ds) ← planResult (Plan.unions ((collectMethodsForErrorType env td err).map (methodPlan env td et)))
    pure (if assigned.length > 0 then { et with codes := CodeSet.union (CodeSet.ofSlice et.codes) assigned } else et, ds)

/-- tag_error_types.go:84-110 `tagErrorType`: the fact to export, if any, and the diagnostics. -/
def tagErrorType (env : Env) (d : Decls) (td : TypeDecls) (fuel : Nat) (spec : TypeSpec) (err : GoType) :
    Except Stop (Option (Object × ErrorType) × List TagDiag) :=
  match getNamedType err with
  | none => .ok (none, [⟨spec.genDecl, .invalidType⟩])
  | some o =>
    if td.isInterface o then .ok (none, [])
    else
      match getCodeFuncFromError env td err with
      | none => .ok (none, [⟨spec.genDecl, .noCodeMethod⟩])
      | some (m, receiver) => do
        let (result, ds) ← CodeMethod.analyse env spec.fields m (d.pos m) receiver fuel
        match result with
        | none => pure (none, ds ++ [⟨spec.genDecl, .noCodes o⟩])
        | some et => do
          let (et, es) ← analyseMethodsOfErrorType env td et err
          pure (some (o, et), ds ++ es.map fun e => ⟨e.at_, .assignment e.msg⟩)

/-- tag_error_types.go:61-69: the type to tag: the declared type or a pointer to it, whichever has the
method `Code`. -/
def typeToTag (env : Env) (t : GoType) : Option GoType :=
  if env.implCode t then some t else if env.implCode (.pointer t) then some (.pointer t) else none

/-- tag_error_types.go:44-81 `findAndTagErrorTypes`: the facts afterwards, and the diagnostics, for the
package's type declarations in order. -/
def findAndTagErrorTypes (env : Env) (d : Decls) (td : TypeDecls) (fuel : Nat) :
    List TypeSpec → Facts → Except Stop (Facts × List TagDiag)
  | [], facts => .ok (facts, [])
  | spec :: specs, facts =>
    match typeToTag env spec.typ with
    | none => findAndTagErrorTypes env d td fuel specs facts
    | some err => do
      let (fact, ds) ← tagErrorType env d td fuel spec err
      let facts := match fact with
        | none => facts
        | some (o, et) => { facts with errorType := fun p => if p = o then some et else facts.errorType p }
      let (facts, ds') ← findAndTagErrorTypes env d td fuel specs facts
      pure (facts, ds ++ ds')

end Serum
