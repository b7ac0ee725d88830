import Verif.Props.Calls

/-! # Specification: the function bodies that make the analyzer panic -/

namespace Serum
namespace Flow

/-- Entry `k` of the left-hand side is a field of variable `x`, named there by `i`. -/
def FieldOf (x : ObjId) (lhs : List Node) (k : Nat) (i : Ident) : Prop :=
  ∃ sid sel, lhs[k]? = some (.selector sid (.ident i) sel) ∧ i.obj = some x

/-- An assignment to two fields of `x` at once, where the type of `x` is an error type without code field. -/
def TwoFieldsOfFieldless (env : Env) (x : ObjId) (lhs : List Node) : Prop :=
  ∃ k k' i i' t, k < k' ∧ FieldOf x lhs k i ∧ FieldOf x lhs k' i' ∧
    env.getErrorTypeForError (env.typeOf i.id) = some t ∧ t.field = none ∧
    ∀ j i₀, j < k → FieldOf x lhs j i₀ → env.getErrorTypeForError (env.typeOf i₀.id) = none

/-- A selector that the type checker understands: of a package, or of a value. -/
def Resolved (env : Env) (sid : NodeId) (x : Node) : Prop :=
  (∃ t p, x.unparen = .ident t ∧ env.pkgName t.id = some p) ∨ env.selection sid ≠ none

end Flow

namespace Analyse
open Flow

variable {env : Env} {f : FnId} {body : List Node}

variable (env f body) in
/-- What the type checker guarantees for what a function body calls, assigns and returns. -/
structure Checked : Prop where
  /-- called selectors name something -/
  called : ∀ id fn args sid x sel, Props.Calls.ErrCall env f body id fn args → fn.unparen = .selector sid x sel → Resolved env sid x
  /-- assigned selectors name something -/
  assigned : ∀ v e sid x sel, Source env body v e → e.unparen = .selector sid x sel → Resolved env sid x
  /-- without result expressions, the results are named -/
  bare : ∀ id, Returns env body id [] → ∃ fields field i, (env.func f).type.results = some fields ∧ fields.getLast? = some field ∧
    field.names.getLast? = some i

/-- A call of an error constructor with too few argument expressions. -/
def TooFewArguments (env : Env) (callee : Option Object) (args : List Node) : Prop :=
  ∃ o position, callee = some o ∧ env.facts.ctor o = some position ∧ args.length ≤ position

/-- A destructuring assignment to an error variable from something that is neither a call of a value of a function type written as such, nor
a type assertion. -/
def UnsupportedDestructuring (env : Env) (d : Destruct) : Prop :=
  (∀ id y t, d.source.unparen ≠ .typeAssert id y t) ∧
    ∀ id fn args, d.source.unparen = .call id fn args → ∀ n, env.typeOf fn.id ≠ .signature n

variable (env f body) in
/-- The constructs of a function body that make the analyzer panic. -/
inductive Crashes : Prop where
  /-- a call of an error constructor, in error position, with fewer argument expressions than the position of the code -/
  | arguments {id fn args} : Props.Calls.ErrCall env f body id fn args → TooFewArguments env (env.callee id) args → Crashes
  /-- `x, ok := m[k]`, `<-c`, or a call of a value whose type is a named function type, for an error variable -/
  | destructuring {x d} : ErrVar env f body x → Destructured env body x d → UnsupportedDestructuring env d → Crashes
  /-- `x.a, x.b = …` for an error variable whose type has no code field -/
  | fields {x id lhs rhs} : ErrVar env f body x → WithinList outsideAssignments (.assign id lhs rhs) body →
      TwoFieldsOfFieldless env x lhs → Crashes

/-- `fn` is a variable (or another name that is declared in the file and is neither function nor type). -/
def IsVariable (env : Env) (fn : Node) : Prop :=
  ∃ i o, fn.unparen = .ident i ∧ i.obj = some o ∧ (∀ g, (env.object o).decl ≠ .funcDecl g) ∧ (env.object o).decl ≠ .typeSpec

end Analyse
end Serum
