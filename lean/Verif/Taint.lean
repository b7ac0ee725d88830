import Verif.Ast
import Verif.Scc

/-! # Variable tracking (`analysis/taint_spread.go`) -/

namespace Serum

/-- analyse.go:826-840 `isIdentOriginOutsideFunctionScope`.  (Only called for functions with a body.) -/
def isIdentOriginOutsideFunctionScope (env : Env) (function : FuncDef) (ident : Ident) : Bool :=
  if ident.name = b!"nil" then false
  else
    let functionPos := if function.type.results.isSome then function.type.resultsPos else function.bodyPos
    match ident.obj with
    | none => true
    | some o => (env.object o).pos ≤ functionPos || (env.object o).pos ≥ function.bodyEnd

/-- taint_spread.go:29-33 `taintSpreadDestruct`. -/
structure Destruct where
  position : Nat
  target : Ident
  source : Node

/-- taint_spread.go:11-27 `taintSpreadResult` and the mutable part of `taintSpread`. -/
structure TaintState where
  visited : List ObjId
  blocked : List ObjId
  expressions : List Node
  destructs : List Destruct
  outOfScope : List Ident

namespace Taint

/-- taint_spread.go:131-141 `processAssignedExpr`; `follow` is `findSpread`. -/
def processAssignedExpr (env : Env) (follow : Ident → TaintState → Except Stop TaintState)
    (expr : Node) (st : TaintState) : Except Stop TaintState :=
  match expr.unparen with
  | .ident i =>
    match i.obj with
    | none => .ok { st with expressions := st.expressions ++ [.ident i] }
    | some o =>
      if (env.object o).kind = .var then follow i st
      else .ok { st with expressions := st.expressions ++ [.ident i] }
  | e => .ok { st with expressions := st.expressions ++ [e] }

/-- taint_spread.go:153-166: the loop over the names of a value specification, looking for object
`o`; `i` is the index of the first name. -/
def findValueInSpec (env : Env) (follow : Ident → TaintState → Except Stop TaintState) (o : ObjId)
    (names : List Ident) (values : List Node) :
    Nat → List Ident → TaintState → Except Stop TaintState
  | _, [], st => .ok st
  | i, n :: ns, st =>
    if n.obj = some o then
      if values.length = names.length then
        match values[i]? with
        | some v => processAssignedExpr env follow v st
        | none => .error (.panic "taint_spread.go:158: index out of range")
      else
        match values with
        | v :: _ => .ok { st with destructs := st.destructs ++ [⟨i, n, v⟩] }
        | [] => .ok st
    else findValueInSpec env follow o names values (i + 1) ns st

/-- taint_spread.go:87-90 and 145-169: the initial value of a variable, if it is declared with one
(`findValueForIdentInValueSpec`). -/
def processInitValue (env : Env) (follow : Ident → TaintState → Except Stop TaintState) (o : ObjId)
    (st : TaintState) : Except Stop TaintState :=
  match (env.object o).decl with
  | .valueSpec names values =>
    if values.length = 0 then .ok st else findValueInSpec env follow o names values 0 names st
  | _ => .ok st

/-- taint_spread.go:173-183 `blockParams`. -/
def blockParams : List Ident → TaintState → Except Stop TaintState
  | [], st => .ok st
  | i :: is, st =>
    match i.obj with
    | none => .error (.panic "taint_spread.go:177: identifiers of parameters should always have an ast object attached")
    | some o => blockParams is { st with blocked := st.blocked ++ [o] }

/-- taint_spread.go:108-125: the loop over the left-hand side of an assignment; `i` is the index of
the first entry. -/
def processAssignment (env : Env) (follow : Ident → TaintState → Except Stop TaintState) (o : ObjId)
    (lhs rhs : List Node) : Nat → List Node → TaintState → Except Stop TaintState
  | _, [], st => .ok st
  | i, l :: ls, st =>
    match l.unparen with
    | .ident t =>
      if t.obj = some o then
        if lhs.length ≠ rhs.length then
          match rhs with
          | r :: _ =>
            processAssignment env follow o lhs rhs (i + 1) ls
              { st with destructs := st.destructs ++ [⟨i, t, r⟩] }
          | [] => .error (.panic "taint_spread.go:122: index out of range")
        else
          match rhs[i]? with
          | some r =>
            match processAssignedExpr env follow r st with
            | .ok st => processAssignment env follow o lhs rhs (i + 1) ls st
            | .error e => .error e
          | none => .error (.panic "taint_spread.go:124: index out of range")
      else processAssignment env follow o lhs rhs (i + 1) ls st
    | _ => processAssignment env follow o lhs rhs (i + 1) ls st

/-- taint_spread.go:92-128: the callback of `ast.Inspect`, for the nodes in order. -/
def processNodes (env : Env) (follow : Ident → TaintState → Except Stop TaintState) (o : ObjId) :
    List Node → TaintState → Except Stop TaintState
  | [], st => .ok st
  | n :: ns, st =>
    let r := match n with
      | .funcLit _ _ type _ => blockParams (type.params.flatMap Field.names) st
      | .assign _ lhs rhs => processAssignment env follow o lhs rhs 0 lhs st
      | _ => .ok st
    match r with
    | .ok st => processNodes env follow o ns st
    | .error e => .error e

/-- taint_spread.go:68-129 `findSpread`; `fuel` bounds the recursion depth, `body` is
`ts.function.body()`, `param` is `ts.paramIdent`. -/
def findSpread (env : Env) (function : FuncDef) (body : List Node) (param : Option ObjId) :
    Nat → Ident → TaintState → Except Stop TaintState
  | 0, _, _ => .error .outOfFuel
  | fuel + 1, ident, st =>
    let blocked := match ident.obj with | some o => decide (o ∈ st.blocked) | none => false
    if (blocked || isIdentOriginOutsideFunctionScope env function ident) ∧
        (param = none ∨ param ≠ ident.obj) then
      .ok { st with outOfScope := st.outOfScope ++ [ident] }
    else if ident.name = b!"nil" then .ok st
    else
      match ident.obj with
      | none => .ok st -- not reachable: an identifier without object is out of scope or `nil`
      | some o =>
        if o ∈ st.visited then .ok st
        else
          let follow := findSpread env function body param fuel
          match processInitValue env follow o { st with visited := st.visited ++ [o] } with
          | .error e => .error e
          | .ok st => processNodes env follow o (Node.inspectList (fun _ => true) body) st

/-- taint_spread.go:36-47 `newTaintSpread` with the given visited objects, then `findSpread`
(taint_spread.go:49-66: the three entry points differ in `visited` and `param` only). -/
def run (env : Env) (function : FuncDef) (body : List Node) (param : Option ObjId)
    (fuel : Nat) (visited : List ObjId) (ident : Ident) : Except Stop TaintState :=
  findSpread env function body param fuel ident ⟨visited, [], [], [], []⟩

end Taint
end Serum
