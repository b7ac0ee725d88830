import Verif.Constant
import Verif.Taint

/-! # Extracting codes from expressions (`analysis/extract_error_code.go`) -/

namespace Serum

/-- A code, if one was found (`code, ok`), and the diagnostics emitted. -/
abbrev Found := Option GoString × List Diag
/-- Codes found, and the diagnostics emitted. -/
abbrev Founds := CodeSet × List Diag

/-- extract_error_code.go:269-291: the loops of `getParamPosition`. -/
def paramPositionLoop (o : ObjId) : Nat → List Field → Option Nat
  | _, [] => none
  | pos, g :: gs =>
    match g.names with
    | [] => paramPositionLoop o (pos + 1) gs
    | ns => match ns.findIdx? (fun n => n.obj == some o) with
      | some i => some (pos + i)
      | none => paramPositionLoop o (pos + ns.length) gs

/-- extract_error_code.go:264-291 `getParamPosition`; Go's -1 is `none`. -/
def getParamPosition (type : FuncType) (param : Ident) : Option Nat :=
  match param.obj with
  | none => none
  | some o => paramPositionLoop o 0 type.params

/-- extract_error_code.go:300-318: the loops of `getParamIdent`. -/
def paramIdentLoop (target : Nat) : Nat → List Field → Option Ident
  | _, [] => none
  | pos, g :: gs =>
    match g.names with
    | [] => if pos = target then none else paramIdentLoop target (pos + 1) gs
    | ns => if target < pos + ns.length then ns[target - pos]? else paramIdentLoop target (pos + ns.length) gs

/-- extract_error_code.go:295-320 `getParamIdent` (positions are never negative here). -/
def getParamIdent (type : FuncType) (position : Nat) : Option Ident := paramIdentLoop position 0 type.params

/-- extract_error_code.go:253-260 `importErrorConstructorFact`. -/
def importErrorConstructorFact (env : Env) (f : FnId) : Option Nat :=
  if (env.func f).declName.isSome then env.facts.ctor (env.funcObj f) else none

/-- extract_error_code.go:201-214 `checkIfExprIsErrorCodeParam`. -/
def checkIfExprIsErrorCodeParam (env : Env) (f : FnId) (ident : Ident) (position : Nat) : List Diag :=
  if importErrorConstructorFact env f = some position then [] else [⟨ident.id, .paramNotDeclared ident.name⟩]

/-- extract_error_code.go:146-171 `extractErrorCodeFromStringExpression`. -/
def extractErrorCodeFromStringExpression (env : Env) (f : FnId) (codeExpr : Node) : Found :=
  match env.value codeExpr.id with
  | some v =>
    match getErrorCodeFromConstant env.isPrint v with
    | none => (none, [⟨codeExpr.id, .badConstant (constantError env.isPrint v)⟩])
    | some code => (if code ≠ [] then some code else none, [])
  | none =>
    match codeExpr.unparen with
    | .ident i =>
      match getParamPosition (env.func f).type i with
      | some position => (none, checkIfExprIsErrorCodeParam env f i position)
      | none => (none, [⟨codeExpr.id, .notConstant⟩])
    | _ => (none, [⟨codeExpr.id, .notConstant⟩])

/-- extract_error_code.go:72-88: the loop over the elements of a composite literal: whether it is key
based, and the value of the wanted key. -/
def findKeyed (name : GoString) : List Node → Bool × Option Node
  | .keyValue _ (.ident i) v :: es =>
    if name = i.name then (true, some v) else (true, (findKeyed name es).2)
  | .keyValue _ _ _ :: _ => (true, none)
  | _ => (false, none)

/-- extract_error_code.go:63-110: the cases of `findFieldInitExpression`, after parentheses were removed from the
expression; `at_` is the node of the expression with its parentheses, for which problems are reported. -/
def findFieldInitIn (field : ErrorCodeField) (at_ : NodeId) : Node → Option Node × List Diag
  | .paren _ x => findFieldInitIn field at_ x
  | .compositeLit _ elts =>
    if elts.length = 0 then (none, [])
    else match findKeyed field.name elts with
      | (_, some v) => (some v, [])
      | (true, none) => (none, [])
      | (false, none) =>
        if field.position < elts.length then (elts[field.position]?, []) else (none, [⟨at_, .noInitialiser⟩])
  | .unary _ isAnd x => if isAnd then findFieldInitIn field x.id x else (none, [⟨at_, .noInitialiser⟩])
  | _ => (none, [⟨at_, .noInitialiser⟩])

/-- extract_error_code.go:62-111 `findFieldInitExpression`. -/
def findFieldInit (field : ErrorCodeField) (e : Node) : Option Node × List Diag := findFieldInitIn field e.id e

/-- extract_error_code.go:49-60 `extractFieldErrorCode`. -/
def extractFieldErrorCode (env : Env) (f : FnId) (expr : Node) (field : ErrorCodeField) : Found :=
  match findFieldInit field expr with
  | (none, ds) => (none, ds)
  | (some fieldExpr, ds) =>
    let (code, ds') := extractErrorCodeFromStringExpression env f fieldExpr
    (code, ds ++ ds')

/-- analyse.go:929-935 `checkErrorTypeHasLegibleCode`. -/
def checkErrorTypeHasLegibleCode (env : Env) (e : Node) : Bool :=
  env.implCode (env.typeOf e.id) || env.implCode (.pointer (env.typeOf e.id))

/-- extract_error_code.go:16-46 `extractErrorCodesFromAffector`. -/
def extractErrorCodesFromAffector (env : Env) (f : FnId) (affector : Node) : Founds :=
  if ¬ checkErrorTypeHasLegibleCode env affector then ([], [⟨affector.id, .noErrorCode⟩])
  else
    match env.getErrorTypeForError (env.typeOf affector.id) with
    | none => ([], [⟨affector.id, .invalidErrorType⟩])
    | some errorType =>
      let result := CodeSet.union [] (CodeSet.ofSlice errorType.codes)
      match errorType.field with
      | none => (result, [])
      | some field =>
        match extractFieldErrorCode env f affector field with
        | (some code, ds) => (result.add code, ds)
        | (none, ds) => (result, ds)

/-- extract_error_code.go:115-124 `extractErrorCodesFromTypeConversion`. -/
def extractErrorCodesFromTypeConversion (env : Env) (fn : Node) : CodeSet :=
  match env.getErrorTypeForError (env.typeOf fn.id) with
  | none => []
  | some errorType => CodeSet.ofSlice errorType.codes

/-- extract_error_code.go:128-144 `extractErrorCodeFromConstructorCall`; `args` are the arguments of the
call expression, if there is one. -/
def extractErrorCodeFromConstructorCall (env : Env) (f : FnId) (reportRange : NodeId)
    (callee : Option Object) (args : Option (List Node)) : Except Stop Found :=
  match callee with
  | none => .ok (none, [])
  | some o =>
    match env.facts.ctor o with
    | none => .ok (none, [])
    | some position =>
      match args with
      | none => .ok (none, [⟨reportRange, .constructorAsValue o⟩])
      | some args =>
        match args[position]? with
        | none => .error (.panic "extract_error_code.go:140: should be unreachable: found function call using less arguments ...")
        | some arg => .ok (extractErrorCodeFromStringExpression env f arg)

/-- extract_error_code.go:244-249: codes assigned to the error code parameter. -/
def codesOfExpressions (env : Env) (f : FnId) : List Node → Founds
  | [] => ([], [])
  | e :: es =>
    let (code, ds) := extractErrorCodeFromStringExpression env f e
    let (codes, ds') := codesOfExpressions env f es
    ((match code with | some c => CodeSet.union [c] codes | none => codes), ds ++ ds')

/-- extract_error_code.go:223-251 `ectractErrorCodesFromConstructor`. -/
def extractErrorCodesFromConstructor (env : Env) (f : FnId) (body : List Node) (fuel : Nat) :
    Except Stop Founds :=
  match importErrorConstructorFact env f with
  | none => .ok ([], [])
  | some position =>
    match getParamIdent (env.func f).type position with
    | none => .error (.panic "extract_error_code.go:235: should be unreachable: error constructor fact points to parameter that does not exist")
    | some paramIdent =>
      match Taint.run env (env.func f) body paramIdent.obj fuel [] paramIdent with
      | .error e => .error e
      | .ok t =>
        let (codes, ds) := codesOfExpressions env f t.expressions
        .ok (codes, t.outOfScope.map (fun i => ⟨i.id, .paramOutOfScope⟩) ++
          t.destructs.map (fun d => ⟨d.source.id, .paramDestructured d.target.name⟩) ++ ds)

end Serum
