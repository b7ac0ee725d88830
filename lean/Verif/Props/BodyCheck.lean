import Verif.BodyCheck
import Verif.Props.BodyReports
import Verif.Props.Checker

/-!
# C58 — checking a package

`bodiesFine` evaluates the hypotheses of C22, C23 and C58 about all functions of a package.
-/

namespace Serum.Check
open Serum RunSpec Props.Run Analyse

/-- All bodies of the package are as parser, type checker and scoping guarantee. -/
def bodiesFine (P : Package) (facts : Facts) : Bool :=
  (List.range P.env.funcs.length).all fun f => match (P.env.func f).body with
    | some body => fine (P.at_ facts) f body
    | none => true

variable {P : Package} {facts facts' : Facts} {f : FnId} {body : List Node}

set_option smartUnfolding false in
theorem shape_at : shape (P.at_ facts) f body = shape (P.at_ facts') f body := rfl

theorem paramCheck_at (h : facts.ctor = facts'.ctor) : paramCheck (P.at_ facts) f body = paramCheck (P.at_ facts') f body := by
  have : importErrorConstructorFact (P.at_ facts) f = importErrorConstructorFact (P.at_ facts') f := by
    unfold importErrorConstructorFact
    show (if (P.env.func f).declName.isSome = true then facts.ctor (P.env.funcObj f) else none) =
      (if (P.env.func f).declName.isSome = true then facts'.ctor (P.env.funcObj f) else none)
    rw [h]
  unfold paramCheck
  rw [this]
  rfl

theorem bodiesFine_sound (h : bodiesFine P facts = true) (hc : facts.ctor = facts'.ctor) (hb : (P.env.func f).body = some body) :
    Regular (P.at_ facts') f body ∧ Checked (P.at_ facts') f body ∧ BodyReports.Typed (P.at_ facts') f body := by
  have hf : f < P.env.funcs.length := by
    by_cases hf : f < P.env.funcs.length
    · exact hf
    · simp [Env.func, List.getD, List.getElem?_eq_none (Nat.le_of_not_lt hf)] at hb
  have := List.all_eq_true.1 h f (List.mem_range.2 hf)
  simp only [hb] at this
  refine fine_sound hb ?_
  unfold fine at this ⊢
  rwa [← shape_at (facts := facts), ← paramCheck_at hc]

theorem factsFor_ctor : (factsFor P facts f).ctor = facts.ctor := by
  unfold factsFor
  split <;> rfl

variable {g : Graph} {e : Expected} {S : Schedule} {strict : Bool} {out : Outcome}

/-- The hypotheses of C22, C23 and C58 about bodies are met in every run over a package for which the checks succeed. -/
theorem bodies_met (h : run P strict e g = true) (ht : Tables P.env.facts) (hb : bodiesFine P (factsOf (runVerify P source strict)) = true)
    (hr : runVerify P S strict = .ok out) (hS : S.Fair) (hbody : (P.env.func f).body = some body) :
    Regular (P.at_ (factsFor P out.facts f)) f body ∧ Checked (P.at_ (factsFor P out.facts f)) f body ∧
      BodyReports.Typed (P.at_ (factsFor P out.facts f)) f body := by
  unfold run at h
  split at h
  · cases h
  rename_i o ho
  simp only [Bool.and_eq_true, safe] at h
  obtain ⟨-, ⟨⟨⟨h1, h2⟩, -⟩, -⟩, -⟩ := h
  rw [ho] at hb
  have hs := facts_order_independent_partial ho hr source_fair hS (objects_sound h1 ht) (program_sound h2)
  exact bodiesFine_sound hb (hs.ctor.trans factsFor_ctor.symm) hbody

/-- **C58** for a package for which the checks succeed: in every run, what is reported about a function that is looked at are exactly the
problems of its body. -/
theorem bodies_reported (h : run P strict e g = true) (ht : Tables P.env.facts)
    (hb : bodiesFine P (factsOf (runVerify P source strict)) = true) (ascii : PrintsAscii P.env.isPrint)
    (hr : runVerify P S strict = .ok out) (hS : S.Fair) (hbody : (P.env.func f).body = some body) {d : Diag} :
    (f, d) ∈ out.bodies ↔ LookedAt P out.facts f ∧ BodyReports.Problem (P.at_ (factsFor P out.facts f)) f body d := by
  obtain ⟨r, -, ty⟩ := bodies_met h ht hb hr hS hbody
  unfold run at h
  split at h
  · cases h
  rename_i o ho
  simp only [Bool.and_eq_true, safe] at h
  obtain ⟨-, ⟨⟨⟨h1, h2⟩, -⟩, -⟩, -⟩ := h
  exact Props.BodyReports.run_exact hr hS (objects_sound h1 ht) (program_sound h2) ascii r ty

/-- What C58 says about a package: for every run there is, whatever the orders in which maps are iterated, a function with a body is
reported about if it is looked at, and then exactly what the problems of its body are. -/
def BodiesExact (P : Package) (strict : Bool) : Prop :=
  ∀ S : Schedule, S.Fair → ∀ out, runVerify P S strict = .ok out → ∀ f body, (P.env.func f).body = some body → ∀ d,
    ((f, d) ∈ out.bodies ↔ LookedAt P out.facts f ∧ BodyReports.Problem (P.at_ (factsFor P out.facts f)) f body d)

theorem bodiesExact (h : run P strict e g = true) (ht : Tables P.env.facts)
    (hb : bodiesFine P (factsOf (runVerify P source strict)) = true) (ascii : PrintsAscii P.env.isPrint) : BodiesExact P strict :=
  fun _ hS _ hr _ _ hbody _ => bodies_reported h ht hb ascii hr hS hbody

end Serum.Check
