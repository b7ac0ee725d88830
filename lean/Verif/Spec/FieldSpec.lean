import Verif.Spec.Within
import Verif.Extract

/-!
# Specification: assignments to a field of a variable

Positions at which `x.field = e` is looked for: everywhere, function literals included, except inside
other assignment statements (see `Props.Fields.nested_assignment_missed`).
-/

namespace Serum
namespace Flow

/-- Entry `k` of the left-hand side is `x.name`. -/
def FieldTarget (x : ObjId) (name : GoString) (lhs : List Node) (k : Nat) : Prop :=
  ∃ sid i sel, lhs[k]? = some (.selector sid (.ident i) sel) ∧ i.obj = some x ∧ sel.name = name

/-- The body has an assignment `…, x.name, … = …, e, …`. -/
def FieldAssigned (body : List Node) (x : ObjId) (name : GoString) (e : Node) : Prop :=
  ∃ id lhs rhs k, WithinList outsideAssignments (.assign id lhs rhs) body ∧ lhs.length = rhs.length ∧
    FieldTarget x name lhs k ∧ rhs[k]? = some e

/-- The body has an assignment `…, x.name, … = e` of several values at once. -/
def FieldDestructured (body : List Node) (x : ObjId) (name : GoString) (e : Node) : Prop :=
  ∃ id lhs rhs k, WithinList outsideAssignments (.assign id lhs rhs) body ∧ lhs.length ≠ rhs.length ∧
    FieldTarget x name lhs k ∧ rhs.head? = some e

end Flow
end Serum
