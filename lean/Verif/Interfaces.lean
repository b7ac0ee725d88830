import Verif.Claims

/-!
# Interfaces whose methods declare codes (`analysis/interfaces_collect.go`)

Go maps with string keys are association lists without repeated keys (`Table`); wherever the Go code
ranges over such a map, the order is a parameter.
-/

namespace Serum

/-- A Go map with string keys: its entries in some order, one per key. -/
abbrev Table (α : Type) := List (GoString × α)

namespace Table
variable {α : Type}

/-- `m[k]`, `none` if there is no entry. -/
def get (m : Table α) (k : GoString) : Option α := (m.find? (fun e => e.1 == k)).map Prod.snd

/-- `delete(m, k)`. -/
def delete (m : Table α) (k : GoString) : Table α := m.filter (fun e => e.1 != k)

/-- `m[k] = v`. -/
def put (m : Table α) (k : GoString) (v : α) : Table α := (k, v) :: m.delete k

end Table

/-- An embedded interface (`*ast.Ident` or `*ast.SelectorExpr`). -/
inductive Embedded where
  | name (id : NodeId) (n : GoString)
  | qualified (id : NodeId)
deriving DecidableEq, Repr

/-- The embedding expression's node. -/
def Embedded.id : Embedded → NodeId
  | .name id _ | .qualified id => id

/-- A method in an interface type: `element` is the `*ast.Field`, `doc` its `Doc.Text()`. -/
structure IfaceMethod where
  element : NodeId
  ident : Ident
  type : FuncType
  doc : Option GoString
deriving DecidableEq, Repr

/-- The elements of an interface type which the analyzer looks at. -/
inductive IfaceElement where
  | method (m : IfaceMethod)
  | embedded (e : Embedded)
deriving DecidableEq, Repr

/-- A `*ast.TypeSpec` with an `*ast.InterfaceType`, at any depth of the package: `obj` is
`TypesInfo.Defs[Name]`, `typ` is `TypesInfo.TypeOf(interfaceType)`. -/
structure IfaceDecl where
  name : GoString
  obj : Object
  typ : GoType
  elements : List IfaceElement
deriving DecidableEq, Repr

/-- The messages of this phase. -/
inductive IfaceMsg where
  /-- analyse.go:304, via `checkFunctionReturnsError` -/
  | claim (m : ClaimMsg)
  /-- interfaces_collect.go:126 "interface method %q has odd docstring: %s" -/
  | oddDocstring (method : GoString) (e : DocError)
  /-- interfaces_collect.go:131 "declaration of error constructors in interfaces is currently not supported" -/
  | constructor
  /-- interfaces_collect.go:147 "interface method %q does not declare any error codes" -/
  | undeclared (method : GoString)
  /-- interfaces_collect.go:237 "embedded interface is not compatible: method %q has mismatches ..." -/
  | incompatible (method : GoString) (text : GoString)
deriving DecidableEq, Repr

/-- A diagnostic of this phase. -/
structure IfaceDiag where
  at_ : NodeId
  msg : IfaceMsg
deriving DecidableEq, Repr

/-- interfaces_collect.go:45-48 `errorMethod`.  (`codes.param` is always nil: line 130.) -/
structure ErrorMethod where
  ident : Option Ident
  codes : CodeSet
deriving DecidableEq, Repr

/-- interfaces_collect.go:39-43 `errorInterfaceInternal`; of `interfaceIdent` its name and
`TypesInfo.Defs` entry. -/
structure ErrorIface where
  name : GoString
  obj : Object
  methods : Table ErrorMethod
  embedded : List Embedded
deriving DecidableEq, Repr

namespace Interfaces

/-- What is read here besides `Env`. -/
structure Info where
  /-- `types.Implements(t, tReeErrorWithCause)`. -/
  implCause : GoType → Bool
  /-- `TypesInfo.Defs[ident]` for method names. -/
  methodObj : NodeId → Object
  /-- The order in which a `range` over a method table goes. -/
  order : {α : Type} → Table α → Table α
  /-- The orders used when comparing code sets. -/
  matchOrders : MatchOrders

/-- interfaces_collect.go:119-151 `checkIfInterfaceMethodDeclaresErrors`, with the report of line 106
for an error.  Since a parameter name is refused (line 130), `findErrorCodeParamIdent` is called with
the empty name and answers `(nil, true)`. -/
def methodDeclares (env : Env) (info : Info) (typ : GoType) (m : IfaceMethod) :
    Except Stop (Option ErrorMethod × List IfaceDiag) := do
  let (returnsError, ds) ← checkFunctionReturnsError env m.type
  let ds := ds.map fun d => (⟨d.at_, .claim d.msg⟩ : IfaceDiag)
  if !returnsError then pure (none, ds)
  else
    match findErrorDocs m.doc with
    | .error e => pure (none, ds ++ [⟨m.element, .oddDocstring m.ident.name e⟩])
    | .ok r =>
      if r.param ≠ [] then pure (none, ds ++ [⟨m.element, .constructor⟩])
      else if r.codes.length = 0 ∧ r.none = false then
        if m.ident.name = b!"Cause" ∧ info.implCause typ = true then pure (none, ds)
        else pure (none, ds ++ [⟨m.element, .undeclared m.ident.name⟩])
      else pure (some ⟨some m.ident, r.codes⟩, ds)

/-- interfaces_collect.go:98-114: the loop over the elements. -/
def elements (env : Env) (info : Info) (typ : GoType) : List IfaceElement → ErrorIface →
    Except Stop (ErrorIface × List IfaceDiag)
  | [], acc => .ok (acc, [])
  | .embedded e :: es, acc => elements env info typ es { acc with embedded := acc.embedded ++ [e] }
  | .method m :: es, acc => do
    let (em, ds) ← methodDeclares env info typ m
    let acc := match em with
      | some em => { acc with methods := acc.methods.put m.ident.name em }
      | none => acc
    let (acc, ds') ← elements env info typ es acc
    pure (acc, ds ++ ds')

/-- interfaces_collect.go:84-117 `checkIfErrorReturningInterface`.  (Interfaces without elements are
dropped at line 93 and, having neither methods nor embedded interfaces, at lines 66-70.) -/
def check (env : Env) (info : Info) (d : IfaceDecl) : Except Stop (ErrorIface × List IfaceDiag) :=
  elements env info d.typ d.elements ⟨d.name, d.obj, [], []⟩

/-- The tables `errorInterfaces` and `embeddingInterfaces`, and the diagnostics so far. -/
structure St where
  done : Table ErrorIface
  pending : Table ErrorIface
  diags : List IfaceDiag

/-- interfaces_collect.go:59-76: the loop over the type declarations. -/
def collect (env : Env) (info : Info) : List IfaceDecl → St → Except Stop St
  | [], st => .ok st
  | d :: ds, st => do
    let (i, diags) ← check env info d
    let st := { st with diags := st.diags ++ diags }
    let st :=
      if i.embedded.length > 0 then { st with pending := st.pending.put i.name i }
      else if i.methods.length > 0 then { st with done := st.done.put i.name i }
      else st
    collect env info ds st

/-- interfaces_collect.go:209-219, 222-231 `addEmbeddedInterfaceErrorMethods(ForFact)`, with
`checkEmbeddedInterfaceErrorMethodCodes` (lines 234-239): the added methods are given with their codes,
in iteration order. -/
def addMethods (info : Info) (at_ : NodeId) : List (GoString × CodeSet) → Table ErrorMethod →
    Table ErrorMethod × List IfaceDiag
  | [], ms => (ms, [])
  | (name, codes) :: add, ms =>
    match ms.get name with
    | none => addMethods info at_ add (ms.put name ⟨none, codes⟩)
    | some old =>
      let (ms', ds) := addMethods info at_ add ms
      match checkIfErrorCodesMatch info.matchOrders old.codes codes with
      | (true, _) => (ms', ds)
      | (false, text) => (ms', ⟨at_, .incompatible name text⟩ :: ds)

/-- The methods of an interface with their codes, in iteration order. -/
def iteration (info : Info) (ms : Table ErrorMethod) : List (GoString × CodeSet) :=
  (info.order ms).map fun e => (e.1, e.2.codes)

/-- interfaces_verify.go:465-473 `importErrorInterfaceFact`. -/
def importFact (env : Env) (t : GoType) : Option (List (GoString × CodeSet)) :=
  (getNamedType t).bind env.facts.interface

/-- interfaces_collect.go:174-200: the loop over the embedded interfaces of `embedding`; `visit` is
`embeddingInterfaceDFS`. -/
def embed (env : Env) (info : Info) (visit : ErrorIface → St → Except Stop St) :
    List Embedded → Table ErrorMethod → St → Except Stop (Table ErrorMethod × St)
  | [], ms, st => .ok (ms, st)
  | .qualified id :: es, ms, st =>
    match importFact env (env.typeOf id) with
    | none => embed env info visit es ms st
    | some add =>
      let (ms, ds) := addMethods info id (info.order add) ms
      embed env info visit es ms { st with diags := st.diags ++ ds }
  | .name id n :: es, ms, st => do
    let st ← match st.pending.get n with
      | some i => visit i st
      | none => pure st
    match st.done.get n with
    | none => embed env info visit es ms st
    | some i =>
      let (ms, ds) := addMethods info id (iteration info i.methods) ms
      embed env info visit es ms { st with diags := st.diags ++ ds }

/-- interfaces_collect.go:171-205 `embeddingInterfaceDFS`; the number bounds the recursion depth. -/
def dfs (env : Env) (info : Info) : Nat → ErrorIface → St → Except Stop St
  | 0, _, _ => .error .outOfFuel
  | fuel + 1, i, st => do
    let st := { st with pending := st.pending.delete i.name }
    let (ms, st) ← embed env info (dfs env info fuel) i.embedded i.methods st
    pure (if ms.length > 0 then { st with done := st.done.put i.name { i with methods := ms } } else st)

/-- interfaces_collect.go:163-168: the loop of `findErrorReturningEmbeddingInterfaces` over the names. -/
def dfsAll (env : Env) (info : Info) (fuel : Nat) : List GoString → St → Except Stop St
  | [], st => .ok st
  | n :: ns, st => do
    let st ← match st.pending.get n with
      | some i => dfs env info fuel i st
      | none => pure st
    dfsAll env info fuel ns st

/-- interfaces_collect.go:50-86 `findErrorReturningInterfaces`; `names` are the keys of
`embeddingInterfaces` in iteration order. -/
def find (env : Env) (info : Info) (fuel : Nat) (names : Table ErrorIface → List GoString)
    (decls : List IfaceDecl) : Except Stop (Table ErrorIface × List IfaceDiag) := do
  let st ← collect env info decls ⟨[], [], []⟩
  let st ← dfsAll env info fuel (names st.pending) st
  pure (st.done, st.diags)

/-- interfaces_collect.go:260-276 `exportErrorInterfaceFact`. -/
def exportInterface (i : ErrorIface) (facts : Facts) : Facts :=
  { facts with interface := fun o =>
      if o = i.obj then some (i.methods.map fun e => (e.1, e.2.codes)) else facts.interface o }

/-- interfaces_collect.go:246-255: the code facts of the methods declared in the interface itself. -/
def exportMethods (info : Info) (ms : Table ErrorMethod) (facts : Facts) : Facts :=
  ms.foldl (fun facts e =>
    match e.2.ident with
    | none => facts
    | some ident =>
      { facts with codes := fun o => if o = info.methodObj ident.id then some e.2.codes else facts.codes o }) facts

/-- interfaces_collect.go:243-257 `exportInterfaceFacts`. -/
def exportFacts (info : Info) (is : Table ErrorIface) (facts : Facts) : Facts :=
  is.foldl (fun facts e => exportMethods info (info.order e.2.methods) (exportInterface e.2 facts)) facts

end Interfaces
end Serum
