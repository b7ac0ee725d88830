import Verif.Messages
import Verif.Props.Checker

/-!
# C54, C57 — the texts shown for a package

From the expected result (`Expected`) to what is shown: file, line and text of each diagnostic.
-/

namespace Serum.Check
open Serum RunSpec Props.Run

/-- The diagnostics that are expected, as the result of a run. -/
def Expected.outcome (e : Expected) : Outcome where
  facts := ⟨fun _ => none, fun _ => none, fun _ => none, fun _ => none⟩
  tags := e.tags
  ifaces := e.ifaces
  signatures := e.signatures
  claims := e.claims
  bodies := e.bodies
  mismatches := e.mismatches
  conversions := e.conversions

/-- A diagnostic as it is printed: file, line, text. -/
abbrev Line := GoString × Nat × GoString

/-- What is printed, where `place` has the files and lines of nodes. -/
def printed (P : Package) (names : Names) (place : NodeId → GoString × Nat) (out : Outcome) : List Line :=
  (out.shown P names).map fun d => ((place d.1).1, (place d.1).2, d.2)

/-- For every run over the package, given any facts `Imported` about other packages, exactly these lines are printed, in some order, whatever
the orders in which maps are iterated. -/
def Prints (P : Package) (Imported : Facts → Prop) (strict : Bool) (names : Names) (place : NodeId → GoString × Nat) (lines : List Line) : Prop :=
  ∀ F, Imported F → ∀ S : Schedule, S.Fair → ∀ (o : FnId → List ObjId → List ObjId) (hf : ∀ f v, (o f v).Perm v),
    ∃ out, runVerify ((P.given F).reordered o hf) S strict = .ok out ∧ (printed ((P.given F).reordered o hf) names place out).Perm lines

theorem Meets.printed {P : Package} {names : Names} {place : NodeId → GoString × Nat} {out : Outcome} {e : Expected} (h : Meets out e) :
    (Check.printed P names place out).Perm (Check.printed P names place e.outcome) := by
  unfold Check.printed Outcome.shown Outcome.messages
  refine List.Perm.map _ (List.Perm.map _ ?_)
  exact (((((h.tags.map _).append (h.ifaces.map _)).append ((h.signatures.append h.claims).map _)).append (h.bodies.map _)).append
    (h.mismatches.map _)).append (h.conversions.map _)

/-- **C54**, for the texts. -/
theorem prints {P : Package} {Imported : Facts → Prop} {strict : Bool} {e : Expected} {names : Names} {place : NodeId → GoString × Nat} {lines : List Line}
    (h : Always P Imported strict e) (hl : printed P names place e.outcome = lines) : Prints P Imported strict names place lines := by
  intro F hF S hS o hf
  obtain ⟨out, h1, h2⟩ := h F hF S hS o hf
  exact ⟨out, h1, hl ▸ h2.printed⟩

end Serum.Check
