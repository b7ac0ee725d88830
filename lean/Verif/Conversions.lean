import Verif.Interfaces
import Verif.Report
import Verif.CallGraph
import Verif.Analyse

/-!
# Conversions to interfaces with error methods (`analysis/interfaces_verify.go`)

The walk over the package yields a sequence of `Step`s: the checks, in order, and panics.  `runSteps`
executes them.
-/

namespace Serum
namespace Conv

/-- What is read from the type checker here besides `Env`. -/
structure Info where
  /-- `types.Named.Underlying()`. -/
  underlying : Object → GoType
  /-- `Signature.Params()`: the parameter types; for a variadic signature the last one is a slice. -/
  params : Nat → List GoType
  /-- `Signature.Variadic()`. -/
  variadic : Nat → Bool
  /-- `types.Tuple`: the component types. -/
  tuple : Nat → List GoType
  /-- `types.Struct`: names and types of the fields. -/
  fields : Nat → List (GoString × GoType)
  /-- `types.Implements(t, interface)`. -/
  implements : GoType → Nat → Bool

/-- analyse.go:236-244 `getUnderlyingType`. -/
def getUnderlyingType (info : Info) (t : GoType) : GoType :=
  match getNamedType t with
  | none => t
  | some o => info.underlying o

/-- The arguments of `checkIfTypeIsValidSubtypeForInterface`: the interface's recorded methods, the
interface type, the expression's type, and the position reported. -/
structure Check where
  methods : List (GoString × CodeSet)
  target : GoType
  source : GoType
  at_ : NodeId
deriving DecidableEq, Repr

/-- One step of the walk. -/
inductive Step where
  | panic (loc : String)
  | check (c : Check)
deriving DecidableEq, Repr

/-- `importErrorInterfaceFact(target)`, followed by the given steps if there is a fact. -/
def withFact (env : Env) (target : GoType) (k : List (GoString × CodeSet) → List Step) : List Step :=
  match Interfaces.importFact env target with
  | none => []
  | some ms => k ms

/-- interfaces_verify.go:474-478 `checkIfExprHasValidSubtypeForInterface`. -/
def checkExpr (env : Env) (ms : List (GoString × CodeSet)) (target : GoType) (e : Node) : Step :=
  .check ⟨ms, target, env.typeOf e.id, e.id⟩

/-- `checkIfExprHasValidSubtypeForInterface` on `es[i]`, which panics if there is no such element. -/
def checkAt (env : Env) (ms : List (GoString × CodeSet)) (target : GoType) (es : List Node) (i : Nat) : Step :=
  match es[i]? with
  | some e => checkExpr env ms target e
  | none => .panic "index out of range"

/-- Steps for each element together with its position. -/
def eachIdx {α : Type} (k : Nat → α → List Step) : Nat → List α → List Step
  | _, [] => []
  | i, x :: xs => k i x ++ eachIdx k (i + 1) xs

/-- interfaces_verify.go:101-125 `findConversionsInAssignStmt`. -/
def inAssign (env : Env) (info : Info) (lhs rhs : List Node) : List Step :=
  eachIdx (fun i l =>
    withFact env (env.typeOf l.id) fun ms =>
      if lhs.length = rhs.length then [checkAt env ms (env.typeOf l.id) rhs i]
      else
        match rhs with
        | [] => [.panic "index out of range"]
        | r :: _ =>
          match env.typeOf r.id with
          | .tuple t =>
            match (info.tuple t)[i]? with
            | some source => [.check ⟨ms, env.typeOf l.id, source, r.id⟩]
            | none => [.panic "should be unreachable: function call destructuring"]
          | _ => [.panic "should be unreachable: function call destructuring"]) 0 lhs

/-- interfaces_verify.go:127-155 `findConversionsInValueSpec`. -/
def inValueSpec (env : Env) (info : Info) (names : List Ident) (type : Option NodeId) (values : List Node) :
    List Step :=
  match values, type with
  | [], _ => []
  | _, none => []
  | v :: vs, some type =>
    withFact env (env.typeOf type) fun ms =>
      if names.length = (v :: vs).length then (v :: vs).map (checkExpr env ms (env.typeOf type))
      else
        match env.typeOf v.id with
        | .tuple t => eachIdx (fun i _ =>
            match (info.tuple t)[i]? with
            | some source => [.check ⟨ms, env.typeOf type, source, v.id⟩]
            | none => [.panic "index out of range"]) 0 names
        | _ => [.panic "should be unreachable: function call destructuring"]

/-- interfaces_verify.go:207-218 `findConversionsExplicit`. -/
def explicit (env : Env) (target : GoType) (args : List Node) : List Step :=
  withFact env target fun ms =>
    match args with
    | [a] => [checkExpr env ms target a]
    | _ => [.panic "should be unreachable: type conversion may only have one parameter"]

/-- interfaces_verify.go:169-204: a call of a function of type `s`. -/
def inFunctionCall (env : Env) (info : Info) (s : Nat) (args : List Node) : List Step :=
  let params := info.params s
  eachIdx (fun i param =>
    withFact env param fun ms =>
      checkAt env ms param args i ::
        (if info.variadic s = true ∧ i = params.length - 1 then
          (args.drop params.length).map (checkExpr env ms param)
        else [])) 0 params ++
  (if info.variadic s = true then
    match params.getLast? with
    | none => [.panic "index out of range"]
    | some (.slice elem) => withFact env elem fun ms =>
        (args.drop (params.length - 1)).map (checkExpr env ms elem)
    | some _ => []
  else [])

/-- interfaces_verify.go:157-205 `findConversionsInCallExpr`. -/
def inCall (env : Env) (info : Info) (fn : Node) (args : List Node) : List Step :=
  if args.length = 0 then []
  else
    match env.typeOf fn.id with
    | .signature s => inFunctionCall env info s args
    | t => explicit env t args

/-- interfaces_verify.go:220-240 `findConversionsInTypeAssertExpr`. -/
def inTypeAssert (env : Env) (info : Info) (x : Node) (type : Option NodeId) : List Step :=
  match type with
  | none => []
  | some type => withFact env (env.typeOf type) fun ms =>
    match getUnderlyingType info (env.typeOf type) with
    | .interface n =>
      if info.implements (env.typeOf x.id) n then [.check ⟨ms, env.typeOf type, env.typeOf x.id, x.id⟩] else []
    | _ => [.check ⟨ms, env.typeOf type, env.typeOf x.id, x.id⟩]

/-- interfaces_verify.go:256-273: the loop over the types of one case. -/
def inCase (env : Env) (info : Info) (source : GoType) (types : List Node) : List Step :=
  types.flatMap fun e => withFact env (env.typeOf e.id) fun ms =>
    match getUnderlyingType info (env.typeOf e.id) with
    | .interface n => if info.implements source n then [.check ⟨ms, env.typeOf e.id, source, e.id⟩] else []
    | _ => []

/-- interfaces_verify.go:242-275 `findConversionsInTypeSwitchStmt`. -/
def inTypeSwitch (env : Env) (info : Info) (assign : Node) (cases : List Node) : List Step :=
  match assign with
  | .assign _ _ [r] =>
    match r with
    | .typeAssert _ x _ => cases.flatMap fun c =>
      match c with
      | .caseClause _ types _ => inCase env info (env.typeOf x.id) types
      | _ => [.panic "interface conversion"]
    | _ => [.panic "interface conversion"]
  | _ => []

/-- interfaces_verify.go:277-293 `findConversionsInIndexExpr`. -/
def inIndex (env : Env) (info : Info) (x idx : Node) : List Step :=
  match getUnderlyingType info (env.typeOf x.id) with
  | .map key _ => withFact env key fun ms => [checkExpr env ms key idx]
  | _ => []

/-- The value a keyed field of a struct literal is given: lines 333-341, for one field name. -/
def keyedValue (env : Env) (ms : List (GoString × CodeSet)) (name : GoString) (type : GoType) : List Node → List Step
  | [] => []
  | .keyValue _ (.ident k) v :: es => if k.name = name then [checkExpr env ms type v] else keyedValue env ms name type es
  | _ :: _ => [.panic "interface conversion"]

/-- `_, ok := e.(*ast.KeyValueExpr)`. -/
def isKeyed : Node → Bool
  | .keyValue .. => true
  | _ => false

/-- interfaces_verify.go:317-344 `findConversionsInStructLit`. -/
def inStructLit (env : Env) (elts : List Node) (fields : List (GoString × GoType)) : List Step :=
  match elts with
  | [] => []
  | first :: _ => eachIdx (fun i field =>
      withFact env field.2 fun ms =>
        if isKeyed first then keyedValue env ms field.1 field.2 elts
        else [checkAt env ms field.2 elts i]) 0 fields

/-- The value of a `key: value` element, and the element itself otherwise. -/
def elementValue : Node → Node
  | .keyValue _ _ v => v
  | e => e

/-- interfaces_verify.go:345-357 `findConversionsInCompositeValues`. -/
def inValues (env : Env) (elts : List Node) (elem : GoType) : List Step :=
  withFact env elem fun ms => elts.map fun e => checkExpr env ms elem (elementValue e)

/-- interfaces_verify.go:359-369 `findConversionsInMapLitKeys`. -/
def inKeys (env : Env) (elts : List Node) (key : GoType) : List Step :=
  withFact env key fun ms => elts.map fun e =>
    match e with
    | .keyValue _ k _ => checkExpr env ms key k
    | _ => .panic "interface conversion"

/-- interfaces_verify.go:295-315 `findConversionsInCompositeLit`. -/
def inComposite (env : Env) (info : Info) (id : NodeId) (elts : List Node) : List Step :=
  if elts.length = 0 then []
  else
    match getUnderlyingType info (env.typeOf id) with
    | .struct n => inStructLit env elts (info.fields n)
    | .slice elem => inValues env elts elem
    | .array elem => inValues env elts elem
    | .map key elem => inValues env elts elem ++ inKeys env elts key
    | _ => []

/-- The number of results one result field stands for: lines 380-385. -/
def fieldWidth (f : Field) : Nat := if f.names.length = 0 then 1 else f.names.length

/-- interfaces_verify.go:378-396: the loop over the result fields. -/
def resultFields (env : Env) (results : List Node) : Nat → List Field → List Step
  | _, [] => []
  | position, f :: fs =>
    withFact env (env.typeOf f.typ) (fun ms =>
      (List.range' position (fieldWidth f)).map fun i => checkAt env ms (env.typeOf f.typ) results i) ++
    resultFields env results (position + fieldWidth f) fs

/-- interfaces_verify.go:371-397 `findConversionsInReturnStmt`. -/
def inReturn (env : Env) (results : List Node) (within_ : FuncType) : List Step :=
  if results.length = 0 then []
  else
    match within_.results with
    | none => [.panic "nil dereference"]
    | some fields => resultFields env results 0 fields

/-- interfaces_verify.go:399-424 `findConversionsInRangeStmtKey`. -/
def inRangeKey (env : Env) (info : Info) (key : Option Node) (x : Node) : List Step :=
  match key with
  | none => []
  | some key => withFact env (env.typeOf key.id) fun ms =>
    match getUnderlyingType info (env.typeOf x.id) with
    | .map k _ => [.check ⟨ms, env.typeOf key.id, k, x.id⟩]
    | .chan e => [.check ⟨ms, env.typeOf key.id, e, x.id⟩]
    | _ => [.panic "unexpected type in for-range statement"]

/-- interfaces_verify.go:439-446: the element type of the range expression's underlying type; `none` for a
failing type assertion. -/
def elemType : GoType → Option GoType
  | .pointer (.array e) => some e
  | .slice e | .array e | .map _ e | .chan e => some e
  | _ => none

/-- interfaces_verify.go:426-449 `findConversionsInRangeStmtValue`.  (The nil check at line 427 looks at
the key; the type of a missing value is nil, for which there is no fact.) -/
def inRangeValue (env : Env) (info : Info) (key value : Option Node) (x : Node) : List Step :=
  match key, value with
  | some _, some value => withFact env (env.typeOf value.id) fun ms =>
    match elemType (getUnderlyingType info (env.typeOf x.id)) with
    | some e => [.check ⟨ms, env.typeOf value.id, e, x.id⟩]
    | none => [.panic "interface conversion"]
  | _, _ => []

/-- interfaces_verify.go:451-461 `findConversionsInSendStmt`. -/
def inSend (env : Env) (info : Info) (ch value : Node) : List Step :=
  match getUnderlyingType info (env.typeOf ch.id) with
  | .chan elem => withFact env elem fun ms => [checkExpr env ms elem value]
  | _ => [.panic "interface conversion"]

/-- interfaces_verify.go:66-95: what is done for a node; `within_` is the type of the innermost
enclosing function literal or function declaration. -/
def atNode (env : Env) (info : Info) (within_ : Option FuncType) : Node → List Step
  | .assign _ lhs rhs => inAssign env info lhs rhs
  | .valueSpec _ names type values => inValueSpec env info names type values
  | .call _ fn args => inCall env info fn args
  | .typeAssert _ x type => inTypeAssert env info x type
  | .typeSwitch _ _ assign cases => inTypeSwitch env info assign cases
  | .index _ x idx => inIndex env info x idx
  | .compositeLit id elts => inComposite env info id elts
  | .ret _ results =>
    match within_ with
    | some t => inReturn env results t
    | none => [.panic "found unexpected return statement"]
  | .range _ key value x _ => inRangeKey env info key x ++ inRangeValue env info key value x
  | .send _ ch value => inSend env info ch value
  | _ => []

/-- What `inspector.Nodes` calls its function with: `push = true` or `false`. -/
inductive Event where
  | push (n : Node)
  | pop (n : Node)
  | enter (f : FnId)
  | leave (f : FnId)

mutual
/-- The events for a node and its parts. -/
def events : Node → List Event
  | .ident i => [.push (.ident i), .pop (.ident i)]
  | .basicLit i => [.push (.basicLit i), .pop (.basicLit i)]
  | .compositeLit i es => .push (.compositeLit i es) :: (eventsList es ++ [.pop (.compositeLit i es)])
  | .keyValue i k v => .push (.keyValue i k v) :: (events k ++ events v ++ [.pop (.keyValue i k v)])
  | .funcLit i f t b => .push (.funcLit i f t b) :: (eventsList b ++ [.pop (.funcLit i f t b)])
  | .paren i x => .push (.paren i x) :: (events x ++ [.pop (.paren i x)])
  | .selector i x s =>
    .push (.selector i x s) :: (events x ++ [.push (.ident s), .pop (.ident s)] ++ [.pop (.selector i x s)])
  | .index i x y => .push (.index i x y) :: (events x ++ events y ++ [.pop (.index i x y)])
  | .typeAssert i x t => .push (.typeAssert i x t) :: (events x ++ [.pop (.typeAssert i x t)])
  | .call i f as => .push (.call i f as) :: (events f ++ eventsList as ++ [.pop (.call i f as)])
  | .unary i a x => .push (.unary i a x) :: (events x ++ [.pop (.unary i a x)])
  | .assign i l r => .push (.assign i l r) :: (eventsList l ++ eventsList r ++ [.pop (.assign i l r)])
  | .ret i rs => .push (.ret i rs) :: (eventsList rs ++ [.pop (.ret i rs)])
  | .valueSpec i ns t vs =>
    .push (.valueSpec i ns t vs) ::
      (ns.flatMap (fun n => [.push (.ident n), .pop (.ident n)]) ++ eventsList vs ++ [.pop (.valueSpec i ns t vs)])
  | .typeSwitch i s a cs =>
    .push (.typeSwitch i s a cs) ::
      (eventsList s ++ (events a ++ eventsList cs) ++ [.pop (.typeSwitch i s a cs)])
  | .caseClause i ts b =>
    .push (.caseClause i ts b) :: (eventsList ts ++ eventsList b ++ [.pop (.caseClause i ts b)])
  | .range i k v x b =>
    .push (.range i k v x b) ::
      (eventsOption k ++ eventsOption v ++ (events x ++ eventsList b) ++ [.pop (.range i k v x b)])
  | .send i c v => .push (.send i c v) :: (events c ++ events v ++ [.pop (.send i c v)])
  | .other i cs => .push (.other i cs) :: (eventsList cs ++ [.pop (.other i cs)])

/-- The events for several nodes. -/
def eventsList : List Node → List Event
  | [] => []
  | n :: ns => events n ++ eventsList ns

/-- The events for an optional node. -/
def eventsOption : Option Node → List Event
  | none => []
  | some n => events n
end

/-- A declaration of the package: a function, or anything else. -/
inductive TopDecl where
  | func (f : FnId)
  | node (n : Node)

/-- The events for a declaration. -/
def topEvents (env : Env) : TopDecl → List Event
  | .func f => .enter f :: (eventsList ((env.func f).body.getD []) ++ [.leave f])
  | .node n => events n

/-- interfaces_verify.go:36-37: the function being walked over, and the function literals around the
current node, innermost first. -/
structure Walk where
  current : Option FuncType
  lits : List FuncType

/-- The innermost enclosing function type. -/
def Walk.within_ (w : Walk) : Option FuncType :=
  match w.lits with
  | t :: _ => some t
  | [] => w.current

/-- interfaces_verify.go:39-99: the function given to `inspector.Nodes`, over a sequence of events; a panic
ends the walk. -/
def walk (env : Env) (info : Info) : Walk → List Event → List Step
  | _, [] => []
  | w, .enter f :: es =>
    if w.lits.length ≠ 0 then [.panic "should never visit funcDecl"]
    else walk env info { w with current := some (env.func f).type } es
  | w, .leave _ :: es =>
    if w.lits.length ≠ 0 then [.panic "should never visit funcDecl"]
    else walk env info { w with current := none } es
  | w, .push n :: es =>
    let w := match n with
      | .funcLit _ _ t _ => { w with lits := t :: w.lits }
      | _ => w
    atNode env info w.within_ n ++ walk env info w es
  | w, .pop n :: es =>
    match n, w.lits with
    | .funcLit .., [] => [.panic "cannot remove function literal from stack"]
    | .funcLit .., _ :: lits => walk env info { w with lits := lits } es
    | _, _ => walk env info w es

/-- interfaces_verify.go:33-99 `findConversionsToErrorReturningInterfaces`: the steps for a package. -/
def steps (env : Env) (info : Info) (decls : List TopDecl) : List Step :=
  walk env info ⟨none, []⟩ (decls.flatMap (topEvents env))

/-- interfaces_verify.go:523: the report for one method, with the codes listed. -/
structure Report where
  at_ : NodeId
  /-- `getNamedType(interfaceType).Obj()`, whose name is shown -/
  interface : Option Object
  method : GoString
  codes : List GoString
deriving DecidableEq, Repr

/-- The iteration orders used while executing the checks. -/
structure Orders where
  methods : List (GoString × CodeSet) → List (GoString × CodeSet)
  diff : CodeSet → List GoString
  slice : CodeSet → List GoString

/-- interfaces_verify.go:499-516: the codes of one method of the expression's type.  `plan` is what the
analyzer does in a function body. -/
def methodCodes {D : Type} (env : Env) (plan : FnId → Plan FnId D) (fuel : Nat) (source : GoType) (method : GoString)
    (st : Search FnId D) : Except Stop (CodeSet × Search FnId D) :=
  match env.searchMethodType source method with
  | none => .error (.panic "should be unreachable: the given expression was confirmed to implement the interface")
  | some o =>
    match env.facts.codes o with
    | some codes => .ok (codes, st)
    | none =>
      match env.searchMethod source method with
      | none => .ok ([], st)
      | some f => Search.findCached plan fuel f st

/-- interfaces_verify.go:499-525: the loop over the methods of the interface. -/
def checkMethods {D : Type} (env : Env) (o : Orders) (plan : FnId → Plan FnId D) (fuel : Nat) (c : Check) :
    List (GoString × CodeSet) → Search FnId D → Except Stop (List Report × Search FnId D)
  | [], st => .ok ([], st)
  | (m, allowed) :: ms, st => do
    let (found, st) ← methodCodes env plan fuel c.source m st
    let rs := match unexpectedCodes o.diff o.slice found allowed with
      | none => []
      | some codes => [(⟨c.at_, getNamedType c.target, m, codes⟩ : Report)]
    let (rs', st) ← checkMethods env o plan fuel c ms st
    pure (rs ++ rs', st)

/-- interfaces_verify.go:484-527 `checkIfTypeIsValidSubtypeForInterface`. -/
def runCheck {D : Type} (env : Env) (o : Orders) (plan : FnId → Plan FnId D) (fuel : Nat) (c : Check)
    (st : Search FnId D) : Except Stop (List Report × Search FnId D) :=
  if c.source = c.target then .ok ([], st)
  else
    match c.source with
    | .untypedNil => .ok ([], st)
    | _ => checkMethods env o plan fuel c (o.methods c.methods) st

/-- Executing the steps. -/
def runSteps {D : Type} (env : Env) (o : Orders) (plan : FnId → Plan FnId D) (fuel : Nat) :
    List Step → Search FnId D → Except Stop (List Report × Search FnId D)
  | [], st => .ok ([], st)
  | .panic loc :: _, _ => .error (.panic loc)
  | .check c :: ss, st => do
    let (rs, st) ← runCheck env o plan fuel c st
    let (rs', st) ← runSteps env o plan fuel ss st
    pure (rs ++ rs', st)

end Conv
end Serum
