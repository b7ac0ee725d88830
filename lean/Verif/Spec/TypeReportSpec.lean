import Verif.Spec.CodeMethodExec
import Verif.Spec.FieldSpec
import Verif.Spec.ConstantSpec
import Verif.ErrorTypes
import Verif.CodeValid

/-!
# Specification: what is reported about the declaration of an error type

Which expressions are looked at is said by `CodeExec.Looked`, `Followed` and `Referenced` (`Verif/Spec/CodeMethodExec.lean`).
-/

namespace Serum
namespace TypeReports
open CodeExec CodeFormat

/-- A constant that is taken as an error code (C27: of at most 70 bytes). -/
def ACode (v : Const) (c : GoString) : Prop := v = .str c ∧ WellFormed c ∧ c.length ≤ 70

/-- A constant that is neither an error code nor empty. -/
def NoCode (v : Const) : Prop := (∀ c, ¬ ACode v c) ∧ v ≠ .str []

variable (env : Env)

section
variable (f : FnId) (body : List Node) (receiver : Option Ident)

/-- A looked at expression selects field `name` of the receiver. -/
def SelectsField (n : Node) (name : GoString) : Prop :=
  Looked env f body n ∧ env.value n.unparen.id = none ∧ FieldOfReceiver receiver n.unparen name

/-- The field that is taken for the code field: one of the fields that are selected, if there are any. -/
def TakenField (taken : Option GoString) : Prop :=
  (∀ name, taken = some name → ∃ n, SelectsField env f body receiver n name) ∧
  (taken = none → ∀ n name, ¬ SelectsField env f body receiver n name)

/-- The problems of a `Code` method, where `taken` is the field that is taken for the code field. -/
inductive MethodProblem (taken : Option GoString) : TagDiag → Prop where
  /-- a constant that is no code -/
  | constant {n v why} : Looked env f body n → env.value n.unparen.id = some v → NoCode v → Because env.isPrint v why →
      MethodProblem taken ⟨n.id, .badConstant why⟩
  /-- another field of the receiver -/
  | second {n name name'} : SelectsField env f body receiver n name → taken = some name' → name ≠ name' →
      MethodProblem taken ⟨n.id, .secondField name name'⟩
  /-- neither a constant, nor a field of the receiver, nor an identifier -/
  | other {n} : Looked env f body n → env.value n.unparen.id = none → (∀ name, ¬ FieldOfReceiver receiver n.unparen name) →
      (∀ i, n.unparen ≠ .ident i) → MethodProblem taken ⟨n.id, .notConstantOrField⟩
  /-- an identifier that is no variable of the method: a parameter, the receiver, or declared outside -/
  | outside {i} : Referenced env f body i → ¬ Flow.Local env (env.func f) body none i → MethodProblem taken ⟨i.id, .outOfScope⟩
  /-- a variable that is assigned together with others from a single expression -/
  | destructured {x d} : Followed env f body x → Flow.Destructured env body x d → MethodProblem taken ⟨d.source.id, .destructured d.target.name⟩
end

/-- The parameters of a function in order, unnamed ones included. -/
def slots (params : List Field) : List (Option Ident) :=
  params.flatMap fun g => if g.names = [] then [none] else g.names.map some

/-- The expression is parameter number `p` of the function `m`. -/
def Parameter (m : FnId) (i : Ident) (p : Nat) : Prop :=
  ∃ o, i.obj = some o ∧ (slots (env.func m).type.params).findIdx? (fun s => s.any fun j => j.obj == some o) = some p

/-- The problems of the assignments to field `name` of the receiver `v` in method `m`. -/
inductive AssignmentProblem (m : FnId) (v : ObjId) (name : GoString) : TagDiag → Prop where
  | constant {e k why} : Flow.FieldAssigned ((env.func m).body.getD []) v name e → env.value e.id = some k → NoCode k →
      Because env.isPrint k why → AssignmentProblem m v name ⟨e.id, .assignment (.badConstant why)⟩
  /-- neither a constant nor a parameter -/
  | other {e} : Flow.FieldAssigned ((env.func m).body.getD []) v name e → env.value e.id = none →
      (∀ i p, e.unparen = .ident i → ¬ Parameter env m i p) → AssignmentProblem m v name ⟨e.id, .assignment .notConstant⟩
  /-- a parameter that is not declared to be the error code parameter of the method -/
  | parameter {e i p} : Flow.FieldAssigned ((env.func m).body.getD []) v name e → env.value e.id = none → e.unparen = .ident i →
      Parameter env m i p → ¬ ((env.func m).declName ≠ none ∧ env.facts.ctor (env.funcObj m) = some p) →
      AssignmentProblem m v name ⟨i.id, .assignment (.paramNotDeclared i.name)⟩
  | destructured {e} : Flow.FieldDestructured ((env.func m).body.getD []) v name e →
      AssignmentProblem m v name ⟨e.id, .assignment .notConstant⟩

/-- The declared type is a struct type with field `name`. -/
def HasField (spec : TypeSpec) (name : GoString) : Prop := ∃ gs ns, spec.fields = some gs ∧ ns ∈ gs ∧ name ∈ ns

end TypeReports
end Serum
