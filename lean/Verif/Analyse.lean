import Verif.Extract
import Verif.CallGraph

/-!
# Looking at one function body (`analysis/analyse.go:466-935`)

Every function below mirrors one function of analyse.go.  What a body contributes is a `Plan`
(`Verif/CallGraph.lean`): set operations, diagnostics, panics and calls to other functions in program
order, which `Search.exec` executes.  Recursion depths are bounded by `fuel`; running out of it is the
only error (`Stop.outOfFuel`) and `Verif/AnalyseFuel.lean` shows that it does not happen.
-/

namespace Serum

/-- What the analyzer does while looking at (a part of) a function body. -/
abbrev BodyPlan := Plan FnId Diag

/-- `pass.ReportRangef` for each diagnostic, in order. -/
def reports (ds : List Diag) : BodyPlan := Plan.unions (ds.map .report)

/-- A set of codes together with the diagnostics emitted while computing it. -/
def founds (x : Founds) : BodyPlan := .union (reports x.2) (.codes x.1)

/-- A possible code together with the diagnostics emitted while computing it. -/
def foundCode (x : Found) : BodyPlan := .union (reports x.2) (.codes x.1.toList)

/-- The result of a step that may panic or run out of fuel. -/
def lift {α : Type} (r : Except Stop α) (k : α → Except Stop BodyPlan) : Except Stop BodyPlan :=
  match r with
  | .ok a => k a
  | .error (.panic loc) => .ok (.panic loc)
  | .error e => .error e

namespace Analyse

/-- analyse.go:754-777 `findErrorCodesInLambdaAssignment`; `call` is `findErrorCodesFromFunctionCall`
without call expression, `name` the name of the variable. -/
def lambdaAssignment (env : Env) (name : GoString) (call : Node → Option Object → Except Stop BodyPlan) (assigned : Node) :
    Except Stop BodyPlan :=
  match assigned.unparen with
  | .funcLit _ g _ _ => .ok (.visit g)
  | .ident i => call (.ident i) (env.uses i.id)
  | .selector id x sel =>
    call (.selector id x sel)
      (match env.selection id with | some (_, o) => some o | none => env.uses sel.id)
  | e => .ok (.report ⟨e.id, .lambdaUnsupported name⟩)

/-- analyse.go:746-750: the loop over the assigned expressions. -/
def lambdaAssignments (env : Env) (name : GoString) (call : Node → Option Object → Except Stop BodyPlan) :
    List Node → Except Stop BodyPlan
  | [] => .ok (.codes [])
  | e :: es => do
    let p ← lambdaAssignment env name call e
    let q ← lambdaAssignments env name call es
    pure (.union p q)

/-- analyse.go:729-752 `findErrorCodesFromAllAssignedLambdas`. -/
def allAssignedLambdas (env : Env) (f : FnId) (body : List Node) (fuel : Nat)
    (call : Node → Option Object → Except Stop BodyPlan) (ident : Ident) : Except Stop BodyPlan :=
  lift (Taint.run env (env.func f) body none fuel [] ident) fun t => do
    let p ← lambdaAssignments env ident.name call t.expressions
    pure (.union (reports (t.outOfScope.map (fun i => ⟨i.id, .lambdaOutOfScope⟩) ++
      t.destructs.map (fun d => ⟨d.source.id, .lambdaDestructured d.target.name⟩))) p)

/-- analyse.go:662-708: the definition of the called function: either what the call contributes (the
cases that return), or the function to look at, if it was found. -/
def calledFunction (env : Env) (f : FnId) (lambdas : Ident → Except Stop BodyPlan) (fn : Node)
    (call : Option (NodeId × List Node)) : Except Stop (BodyPlan ⊕ Option FnId) :=
  match fn.unparen with
  | .ident i =>
    match i.obj with
    | none =>
      match env.functions i.name with
      | some g => .ok (.inr (some g))
      | none => .ok (.inl (.report ⟨i.id, .dotImportUndeclared i.name⟩))
    | some o =>
      match (env.object o).decl with
      | .funcDecl g => .ok (.inr (some g))
      | .typeSpec =>
        match call with
        | some (id, args) => .ok (.inl (founds (extractErrorCodesFromAffector env f (.call id fn args))))
        | none => .ok (.inl (.codes []))
      | _ => do
        let p ← lambdas i
        pure (.inl p)
  | .selector id x sel =>
    let pkg := match x.unparen with | .ident t => env.pkgName t.id | _ => none
    match pkg with
    | some name => .ok (.inl (.report ⟨id, .foreignUndeclared sel.name name⟩))
    | none =>
      match env.selection id with
      | none => .ok (.inl (.panic "analyse.go:702: nil pointer dereference"))
      | some (recv, _) => .ok (.inr (env.searchMethod recv sel.name))
  | .funcLit _ g _ _ => .ok (.inr (some g))
  | e => .ok (.inl (.report ⟨e.id, .unnamedFunction⟩))

/-- analyse.go:638-725 `findErrorCodesFromFunctionCall`, on identifiers for lambdas via `lambdas`.
(`call` is the call expression's node and arguments; its `Fun` is `fn`.)  Where the Go code returns
without `result` (lines 671, 676-684, 693, 705), the constructor's code is dropped. -/
def functionCall (env : Env) (f : FnId) (lambdas : Ident → Except Stop BodyPlan) (fn : Node)
    (callee : Option Object) (call : Option (NodeId × List Node)) : Except Stop BodyPlan :=
  lift (extractErrorCodeFromConstructorCall env f fn.id callee (call.map Prod.snd)) fun ctor =>
    match callee.bind env.facts.codes with
    | some codes => .ok (.union (foundCode ctor) (.codes codes))
    | none =>
      let conversionCodes :=
        if call.isSome ∧ callee = none then extractErrorCodesFromTypeConversion env fn else []
      if conversionCodes ≠ [] then .ok (.union (foundCode ctor) (.codes conversionCodes))
      else do
        match ← calledFunction env f lambdas fn call with
        | .inl p => pure (.union (reports ctor.2) p)
        | .inr (some g) => pure (.union (foundCode ctor) (.call g))
        | .inr none => pure (.union (foundCode ctor) (.report ⟨fn.id, .calleeUndeclared⟩))

/-- analyse.go:638-725 and 729-777: `findErrorCodesFromFunctionCall` with the functions it is mutually
recursive with.  The recursion goes through identifiers that are not variables. -/
def call (env : Env) (f : FnId) (body : List Node) (taintFuel : Nat) :
    Nat → Node → Option Object → Option (NodeId × List Node) → Except Stop BodyPlan
  | 0, _, _, _ => .error .outOfFuel
  | fuel + 1, fn, callee, callExpr =>
    functionCall env f
      (allAssignedLambdas env f body taintFuel (fun n o => call env f body taintFuel fuel n o none))
      fn callee callExpr

/-- analyse.go:630-633 `findErrorCodesInCallExpression`. -/
def callExpression (env : Env) (f : FnId) (body : List Node) (fuel : Nat) (id : NodeId) (fn : Node)
    (args : List Node) : Except Stop BodyPlan :=
  call env f body fuel fuel fn (env.callee id) (some (id, args))

/-- A plan, and the variables visited so far (`visitedIdents`). -/
abbrev Threaded := BodyPlan × List ObjId

/-- Without effect on `visitedIdents`. -/
def keep (visited : List ObjId) (r : Except Stop BodyPlan) : Except Stop Threaded :=
  match r with
  | .ok p => .ok (p, visited)
  | .error e => .error e

/-- analyse.go:576-620 `findErrorCodesInExpression`; `taint` is `findErrorCodesFromIdentTaint`. -/
def expression (env : Env) (f : FnId) (body : List Node) (fuel : Nat)
    (taint : List ObjId → Ident → Except Stop Threaded) (visited : List ObjId) (expr : Node) :
    Except Stop Threaded :=
  match expr.unparen with
  | .call id fn args => keep visited (callExpression env f body fuel id fn args)
  | .ident i => taint visited i
  | .unary id isAnd x =>
    if isAnd && env.implError (env.typeOf id) then
      match x.unparen with
      | .ident i => taint visited i
      | _ => .ok (founds (extractErrorCodesFromAffector env f (.unary id isAnd x)), visited)
    else .ok (.report ⟨id, .notErrorType⟩, visited)
  | .compositeLit id elts => .ok (founds (extractErrorCodesFromAffector env f (.compositeLit id elts)), visited)
  | .basicLit id => .ok (founds (extractErrorCodesFromAffector env f (.basicLit id)), visited)
  | .selector _ _ sel => taint visited sel
  | .typeAssert id _ none => .ok (.report ⟨id, .typeSwitchUnsupported⟩, visited)
  | .typeAssert id _ (some _) => .ok (.report ⟨id, .typeAssertUnsupported⟩, visited)
  | .index id _ _ => .ok (.report ⟨id, .indexUnsupported⟩, visited)
  | e => .ok (.report ⟨e.id, .exprUnsupported⟩, visited)

/-- analyse.go:796-799: the loop over the assigned expressions. -/
def expressions (expr : List ObjId → Node → Except Stop Threaded) :
    List ObjId → List Node → Except Stop Threaded
  | visited, [] => .ok (.codes [], visited)
  | visited, e :: es => do
    let (p, visited) ← expr visited e
    let (q, visited) ← expressions expr visited es
    pure (.union p q, visited)

/-- analyse.go:802-818: the body of the loop over destructuring assignments. -/
def destruct (env : Env) (f : FnId) (body : List Node) (fuel : Nat)
    (expr : List ObjId → Node → Except Stop Threaded) (visited : List ObjId) (d : Destruct) :
    Except Stop Threaded :=
  match d.source.unparen with
  | .typeAssert _ x _ => expr visited x
  | .call id fn args =>
    match env.typeOf fn.id with
    | .signature n =>
      if d.position + 1 ≠ env.sigResults n then .ok (.report ⟨d.target.id, .nonLastResult⟩, visited)
      else keep visited (callExpression env f body fuel id fn args)
    | _ => .ok (.panic "analyse.go:807: interface conversion: types.Type is not *types.Signature", visited)
  | _ => .ok (.panic "analyse.go:818: destructuring assignment is currently only supported from a call expression", visited)

/-- analyse.go:801-820: the loop over destructuring assignments. -/
def destructs (env : Env) (f : FnId) (body : List Node) (fuel : Nat)
    (expr : List ObjId → Node → Except Stop Threaded) :
    List ObjId → List Destruct → Except Stop Threaded
  | visited, [] => .ok (.codes [], visited)
  | visited, d :: ds => do
    let (p, visited) ← destruct env f body fuel expr visited d
    let (q, visited) ← destructs env f body fuel expr visited ds
    pure (.union p q, visited)

/-- analyse.go:780-823 `findErrorCodesFromIdentTaint`; the first number bounds the recursion depth. -/
def identTaint (env : Env) (f : FnId) (body : List Node) (fuel : Nat) :
    Nat → List ObjId → Ident → Except Stop Threaded
  | 0, _, _ => .error .outOfFuel
  | depth + 1, visited, ident =>
    match Taint.run env (env.func f) body none fuel visited ident with
    | .error (.panic loc) => .ok (.panic loc, visited)
    | .error e => .error e
    | .ok t => do
      let expr := expression env f body fuel (identTaint env f body fuel depth)
      let (p, visited) ← expressions expr t.visited t.expressions
      let (q, visited) ← destructs env f body fuel expr visited t.destructs
      pure (.union (reports (t.outOfScope.map (fun i => ⟨i.id, .errorOutOfScope⟩))) (.union p q), visited)

/-- analyse.go:553-568: the expression whose codes a return statement yields. -/
def resultExpression (type : FuncType) : List Node → Except String Node
  | [] =>
    match type.results with
    | none => .error "analyse.go:554: nil pointer dereference"
    | some fields =>
      match fields.getLast? with
      | none => .error "analyse.go:556: should be unreachable: we already know that the function signature contains an error result."
      | some field =>
        match field.names.getLast? with
        | none => .error "analyse.go:561: should be unreachable: an empty return statement requires either empty result list or named results."
        | some i => .ok (.ident i)
  | r :: rs => .ok ((r :: rs).getLast (by simp))

/-- analyse.go:550-573 `findErrorCodesInReturnStmt`. -/
def returnStmt (env : Env) (f : FnId) (body : List Node) (fuel : Nat) (visited : List ObjId)
    (results : List Node) : Except Stop Threaded :=
  match resultExpression (env.func f).type results with
  | .error loc => .ok (.panic loc, visited)
  | .ok e => expression env f body fuel (identTaint env f body fuel fuel) visited e

/-- analyse.go:501-515: one return statement. -/
def annotatedReturn (env : Env) (f : FnId) (body : List Node) (fuel : Nat) (visited : List ObjId)
    (id : NodeId) (results : List Node) : Except Stop Threaded :=
  match getReturnStmtAnnotations (env.comments id) with
  | (annotation, ds) => do
    let ds := reports (ds.map fun d => ⟨id, .annotation d⟩)
    match annotation with
    | none =>
      let (p, visited) ← returnStmt env f body fuel visited results
      pure (.union ds p, visited)
    | some a =>
      if a.shouldOverwrite then pure (.union ds (.codes a.overwrite), visited)
      else
        let (p, visited) ← returnStmt env f body fuel visited results
        pure (.union ds (.union (.minus p a.subCodes) (.codes a.addCodes)), visited)

/-- analyse.go:497-518: whether `ast.Inspect` looks into a node when searching for return statements. -/
def intoReturns : Node → Bool
  | .funcLit .. | .ret .. => false
  | _ => true

/-- analyse.go:494-521 `findErrorCodesInFunctionReturnStmts`, for the nodes in order. -/
def returnStmts (env : Env) (f : FnId) (body : List Node) (fuel : Nat) :
    List ObjId → List Node → Except Stop Threaded
  | visited, [] => .ok (.codes [], visited)
  | visited, .ret id results :: ns => do
    let (p, visited) ← annotatedReturn env f body fuel visited id results
    let (q, visited) ← returnStmts env f body fuel visited ns
    pure (.union p q, visited)
  | visited, _ :: ns => returnStmts env f body fuel visited ns

/-- analyse.go:891-899: `x.sel` with an identifier `x` (parentheses are not removed). -/
def fieldTarget : Node → Option (Ident × Ident)
  | .selector _ (.ident x) sel => some (x, sel)
  | _ => none

/-- analyse.go:907-909: the local variable `errorType` after it was looked up if it was nil. -/
def resolveType (env : Env) (errorType : Option ErrorType) (x : Ident) : Option ErrorType :=
  match errorType with
  | some t => some t
  | none => env.getErrorTypeForError (env.typeOf x.id)

/-- analyse.go:890-924: the loop over the left-hand side in
`findCodesAssignedToErrorCodeFieldInAssignment`; `i` is the index of the first entry, `errorType` the
local variable of that name. -/
def fieldAssignment (env : Env) (f : FnId) (errorIdent : ObjId) (lhsLen : Nat) (rhs : List Node) :
    Option ErrorType → Nat → List Node → BodyPlan
  | _, _, [] => .codes []
  | errorType, i, l :: ls =>
    match fieldTarget l with
    | none => fieldAssignment env f errorIdent lhsLen rhs errorType (i + 1) ls
    | some (x, sel) =>
      if x.obj ≠ some errorIdent then fieldAssignment env f errorIdent lhsLen rhs errorType (i + 1) ls
      else
        match resolveType env errorType x with
        | none => fieldAssignment env f errorIdent lhsLen rhs none (i + 1) ls
        | some t =>
          match t.field with
          | none =>
            if errorType = none then fieldAssignment env f errorIdent lhsLen rhs (some t) (i + 1) ls
            else .panic "analyse.go:915: nil pointer dereference"
          | some field =>
            if field.name ≠ sel.name then fieldAssignment env f errorIdent lhsLen rhs (some t) (i + 1) ls
            else if lhsLen ≠ rhs.length then
              match rhs with
              | [] => .panic "analyse.go:920: index out of range"
              | r :: _ =>
                .union (.report ⟨r.id, .notConstant⟩) (fieldAssignment env f errorIdent lhsLen rhs (some t) (i + 1) ls)
            else
              match rhs[i]? with
              | none => .panic "analyse.go:924: index out of range"
              | some r =>
                .union (foundCode (extractErrorCodeFromStringExpression env f r))
                  (fieldAssignment env f errorIdent lhsLen rhs (some t) (i + 1) ls)

/-- analyse.go:861-871: whether `ast.Inspect` looks into a node when searching for assignments to
fields: not into assignments. -/
def intoFields : Node → Bool
  | .assign .. => false
  | _ => true

/-- analyse.go:861-871: the assignments found by `ast.Inspect`, in order. -/
def fieldAssignments (env : Env) (f : FnId) (errorIdent : ObjId) : List Node → BodyPlan
  | [] => .codes []
  | .assign _ lhs rhs :: ns =>
    .union (fieldAssignment env f errorIdent lhs.length rhs none 0 lhs) (fieldAssignments env f errorIdent ns)
  | _ :: ns => fieldAssignments env f errorIdent ns

/-- analyse.go:842-874 `findCodesAssignedToErrorCodeFields`, `findCodesAssignedToErrorCodeField`.  Go
iterates over the map `visitedIdents` in arbitrary order (`fieldOrder`).  `ast.Inspect` also walks over the
function's signature, which contains no assignments. -/
def assignedFields (env : Env) (f : FnId) (body : List Node) (visited : List ObjId) : BodyPlan :=
  Plan.unions ((env.fieldOrder f visited).map fun o => fieldAssignments env f o (Node.inspectList intoFields body))

/-- analyse.go:466-482: the part of `findErrorCodesInFunc` that looks at the body. -/
def bodyPlan (env : Env) (fuel : Nat) (f : FnId) : Except Stop BodyPlan :=
  match (env.func f).body with
  | none => .ok (.panic "analyse.go:497: nil pointer dereference (function without body)")
  | some body =>
    lift (extractErrorCodesFromConstructor env f body fuel) fun paramCodes => do
      let (returnCodes, visited) ← returnStmts env f body fuel [] (Node.inspectList intoReturns body)
      pure (.union (founds paramCodes) (.union returnCodes (assignedFields env f body visited)))

/-- The plan of a function; running out of fuel (which does not happen, see `Verif/AnalyseFuel.lean`)
appears as a panic. -/
def plan (env : Env) (fuel : Nat) (f : FnId) : BodyPlan :=
  match bodyPlan env fuel f with
  | .ok p => p
  | .error _ => .panic "out of fuel"

end Analyse
end Serum
