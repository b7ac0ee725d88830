import Verif.CallGraph

/-!
# Specification of the codes of functions

Independent of how the search proceeds: reachability in the call graph, recursion cycles, and the
least assignment of codes to functions that is consistent with all function bodies.
-/

namespace Serum
variable {N D : Type}

/-- Reachability along `E` (reflexive and transitive). -/
inductive Reach (E : N → N → Prop) : N → N → Prop where
  | refl (a) : Reach E a a
  | step {a b c} : E a b → Reach E b c → Reach E a c

/-- `a` and `b` lie on a common cycle (or are equal). -/
def Mutual (E : N → N → Prop) (a b : N) : Prop := Reach E a b ∧ Reach E b a

/-- `f` calls `g` (its plan has a call to, or a direct visit of `g`). -/
def Calls (plan : N → Plan N D) (f g : N) : Prop := g ∈ (plan f).targets

/-- Code `c` comes out of a plan when called functions yield the codes given by `ρ`. -/
def Plan.Yields (ρ : N → GoString → Prop) : Plan N D → GoString → Prop
  | .codes s, c => c ∈ s
  | .report _, _ | .panic _, _ => False
  | .call g, c | .visit g, c => ρ g c
  | .union a b, c => a.Yields ρ c ∨ b.Yields ρ c
  | .minus a s, c => a.Yields ρ c ∧ c ∉ s

/-- An assignment of codes to functions is consistent: it has everything that comes out of each
function's plan, and functions on a common recursion cycle share their codes. -/
def Consistent (plan : N → Plan N D) (ρ : N → GoString → Prop) : Prop :=
  (∀ f c, (plan f).Yields ρ c → ρ f c) ∧
  (∀ f g c, Mutual (Calls plan) f g → ρ g c → ρ f c)

/-- The codes of a function: in the least consistent assignment. -/
def CodesOf (plan : N → Plan N D) (f : N) (c : GoString) : Prop :=
  ∀ ρ, Consistent plan ρ → ρ f c

end Serum
