import Verif.Spec.FlowSpec

/-!
# Specification: executions of a `Code() string` method

A deliberately liberal operational semantics of the strings in a method body.  Control flow is arbitrary:
at any moment any assignment of the body, closures included, may be executed, any number of variables may be
assigned at once, and other code may change the fields of the receiver.  Variables exist in any number of
instances (closures, recursion, loop iterations).  Hence every real execution of a method of the
supported fragment is an execution here.

What a variable may hold beyond the values of the expressions assigned to it by the body is spelled out
in `Wild`: such variables may hold any string.
-/

namespace Serum
namespace CodeExec

/-- What the modelled syntax does not record: which assignments use an operator (`x += e`), and which
functions have `defer` statements. -/
structure Extra where
  opAssign : NodeId → Bool
  defers : FnId → Bool

/-- A state: the strings held by each instance of each variable, and by the fields of the receiver. -/
structure State where
  var : ObjId → Nat → GoString
  field : GoString → GoString

variable (env : Env) (x : Extra) (f : FnId) (body : List Node) (receiver : Option Ident)

/-- The expression selects field `name` of the receiver. -/
def FieldOfReceiver (e : Node) (name : GoString) : Prop :=
  ∃ id y sel r i, e = .selector id y sel ∧ receiver = some r ∧ y.unparen = .ident i ∧ i.obj = r.obj ∧
    sel.name = name

/-- Variables that are assigned other than by a plain assignment: targets of `range` and of operator
assignments, and variables whose address is taken. -/
def Hidden (v : ObjId) : Prop :=
  (∃ id k l y b i, Occurs (.range id k l y b) body ∧ (k = some (.ident i) ∨ l = some (.ident i)) ∧ i.obj = some v) ∨
  (∃ id lhs rhs l i, Occurs (.assign id lhs rhs) body ∧ x.opAssign id = true ∧ l ∈ lhs ∧ l.unparen = .ident i ∧
    i.obj = some v) ∨
  (∃ id y i, Occurs (.unary id true y) body ∧ y.unparen = .ident i ∧ i.obj = some v)

/-- Variable `v` is assigned in the body. -/
def Reassigned (v : ObjId) : Prop :=
  (∃ e, Flow.AssignedBy body v e) ∨ (∃ d, Flow.Destructured env body v d) ∨ Hidden x body v

/-- The strings an expression can evaluate to.  Constants have the value found by the type checker; an
expression that is neither a constant, nor a field of the receiver, nor a variable may have any value
(`nil` is no string), and so may a field of a reassigned receiver variable. -/
inductive Eval (σ : State) (e : Node) : GoString → Prop where
  | const {s} : env.value e.unparen.id = some (.str s) → Eval σ e s
  | field {name} : env.value e.unparen.id = none → FieldOfReceiver receiver e.unparen name →
      Eval σ e (σ.field name)
  | reassigned {name r v s} : env.value e.unparen.id = none → FieldOfReceiver receiver e.unparen name →
      receiver = some r → r.obj = some v → Reassigned env x body v → Eval σ e s
  | var {i v n} : env.value e.unparen.id = none → e.unparen = .ident i → i.obj = some v →
      Eval σ e (σ.var v n)
  | any {s} : env.value e.unparen.id = none → (¬ ∃ name, FieldOfReceiver receiver e.unparen name) →
      (∀ i, e.unparen = .ident i → i.obj = none ∧ i.name ≠ b!"nil") → Eval σ e s

/-- Variables that may hold any string: variables that are not declared by the results or the body of the
method, parameters of function literals, and variables that are not assigned in plain sight. -/
def Wild (v : ObjId) : Prop :=
  ¬ (Flow.startPos (env.func f) < (env.object v).pos ∧ (env.object v).pos < (env.func f).bodyEnd) ∨
  Flow.LitParam body v ∨ Hidden x body v

/-- The strings that executing a statement can assign to a variable in state `σ`. -/
inductive MayAssign (σ : State) (v : ObjId) : GoString → Prop where
  /-- Declaration without initial value. -/
  | zero : MayAssign σ v []
  /-- `var v = e`, `v = e`, `v := e`. -/
  | source {e s} : Flow.Source env body v e → Eval env x body receiver σ e s → MayAssign σ v s
  /-- `v, … = call()`, and similar. -/
  | destructured {d s} : Flow.Destructured env body v d → MayAssign σ v s
  | wild {s} : Wild env x f body v → MayAssign σ v s

/-- The states in which an execution can start: all variables are empty, or wild. -/
def Initial (σ : State) : Prop := ∀ v n, σ.var v n = [] ∨ Wild env x f body v

/-- One step: some variables are assigned; fields of the receiver may change in any way. -/
def Step (σ σ' : State) : Prop := ∀ v n, σ'.var v n = σ.var v n ∨ MayAssign env x f body receiver σ v (σ'.var v n)

/-- Executions: the states passed through, latest first. -/
inductive Execution : List State → Prop where
  | start {σ} : Initial env x f body σ → Execution [σ]
  | step {σ τ σ'} : Execution (σ :: τ) → Step env x f body receiver σ σ' → Execution (σ' :: σ :: τ)

/-- A return statement of the method itself, not of a nested function literal. -/
def Returns (results : List Node) : Prop :=
  ∃ id, WithinList (fun | .funcLit .. => false | _ => true) (.ret id results) body

/-- The named result of the method. -/
def NamedResult (i : Ident) : Prop := ∃ t, (env.func f).type.results = some [⟨[i], t⟩]

/-- The strings the method can return in state `σ`: the value of a returned expression, or, for a bare
return, or if deferred calls may have changed it, the value of the named result. -/
inductive Result (σ : State) : GoString → Prop where
  | expr {e s} : Returns body [e] → Eval env x body receiver σ e s → Result σ s
  | bare {i v n} : Returns body [] → NamedResult env f i → i.obj = some v → Result σ (σ.var v n)
  | deferred {i v n} : x.defers f = true → NamedResult env f i → i.obj = some v → Result σ (σ.var v n)

/-- The expression is the variable `v`. -/
def VarOf (e : Node) (v : ObjId) : Prop :=
  env.value e.unparen.id = none ∧ ∃ i, e.unparen = .ident i ∧ i.obj = some v

/-- The variables whose value the method may return. -/
inductive StrVar : ObjId → Prop where
  | bare {i v} : Returns body [] → NamedResult env f i → i.obj = some v → StrVar v
  | ret {e v} : Returns body [e] → VarOf env e v → StrVar v
  | source {u e v} : StrVar u → Flow.Source env body u e → VarOf env e v → StrVar v

/-- The expressions whose value the method may return. -/
def StrExpr (e : Node) : Prop := Returns body [e] ∨ ∃ v, StrVar env f body v ∧ Flow.Source env body v e

/-- The identifiers whose value the method may return. -/
def StrIdent (i : Ident) : Prop :=
  (∃ e, StrExpr env f body e ∧ env.value e.unparen.id = none ∧ e.unparen = .ident i) ∨
  (Returns body [] ∧ NamedResult env f i)

/-- The variables to which assignments are looked for: as `StrVar`, but only variables declared by the results or
the body of the method are followed, and no parameters of function literals. -/
inductive Followed : ObjId → Prop where
  | bare {i v} : Returns body [] → NamedResult env f i → i.obj = some v → Flow.Local env (env.func f) body none i → Followed v
  | ret {e i v} : Returns body [e] → env.value e.unparen.id = none → e.unparen = .ident i → i.obj = some v →
      Flow.Local env (env.func f) body none i → Followed v
  | source {u e i v} : Followed u → Flow.Source env body u e → env.value e.unparen.id = none → e.unparen = .ident i →
      i.obj = some v → Flow.Local env (env.func f) body none i → Followed v

/-- The expressions that have to be constants, fields of the receiver or variables: returned expressions, and, without
their parentheses, the expressions assigned to followed variables. -/
def Looked (n : Node) : Prop := Returns body [n] ∨ ∃ v e, Followed env f body v ∧ Flow.Source env body v e ∧ n = e.unparen

/-- The identifiers among them, and the named result of a bare return. -/
def Referenced (i : Ident) : Prop :=
  (∃ n, Looked env f body n ∧ env.value n.unparen.id = none ∧ n.unparen = .ident i) ∨ (Returns body [] ∧ NamedResult env f i)

/-- The supported fragment: the variables whose value may be returned are assigned in plain sight, the
receiver variable is not reassigned, and a method with a named result does not defer calls. -/
structure Supported : Prop where
  plain : ∀ v, StrVar env f body v → ¬ Hidden x body v
  receiver : ∀ r v, receiver = some r → r.obj = some v → ¬ Reassigned env x body v
  defers : (∃ i, NamedResult env f i) → x.defers f = false

/-- What Go guarantees: variables are not constants, and variables are not called `nil` (which is legal
but would be perverse). -/
structure Typed : Prop where
  vars : ∀ e i v, StrExpr env f body e → e.unparen = .ident i → i.obj = some v → (env.object v).kind = .var →
    env.value e.unparen.id = none
  nil : ∀ i v, StrIdent env f body i → i.obj = some v → i.name ≠ b!"nil"

/-- Lexical scoping of parameters of nested function literals. -/
structure Scoped : Prop where
  before : Flow.LitsBeforeUses env body
  clean : ∀ i, StrIdent env f body i → Flow.CleanRoot env body i

end CodeExec
end Serum
