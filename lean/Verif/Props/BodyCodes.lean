import Verif.BodyCodes
import Verif.Props.BodyReports
import Verif.Props.Adoption
import Verif.Props.Edits

/-!
# C64 — the codes of function bodies, exactly
-/

namespace Serum.Props.BodyCodes
open Serum Flow Taint Analyse Serum.TypeReports Serum.BodyReports Serum.BodyCodes RunSpec Serum.Props.Run

/-- **C64**, for one body: the codes that come out of a function body, given those of the other functions, are exactly the ones listed by
`BodyCode`.

Partial: bodies in which an annotation removes codes of a variable that another return statement may return, too (`Apart`); there the
codes depend on the order of the statements, see `Bodies.annotation_leaks`. -/
theorem body_codes_exact_partial {env : Env} {f : FnId} {body : List Node} (h : Regular env f body) (hc : Checked env f body)
    (ty : Typed env f body) (ascii : PrintsAscii env.isPrint) {fuel : Nat} (hf : bound env ≤ fuel) (calm : ¬ Crashes env f body)
    (apart : Apart env f body) {ρ : FnId → GoString → Prop} {c : GoString} :
    (plan env fuel f).Yields ρ c ↔ BodyCode env f body ρ c :=
  body_codes h ty ascii hf apart (by
    cases hp : (plan env fuel f).panics with
    | false => rfl
    | true => exact absurd ((h.panics_iff hc hf).1 hp) calm)

/-- No annotation of the function removes codes, and its body is that of a type-checked function. -/
structure Plain (env : Env) (f : FnId) : Prop where
  regular : ∀ body, (env.func f).body = some body → Regular env f body
  typed : ∀ body, (env.func f).body = some body → Typed env f body
  noSub : ∀ body, (env.func f).body = some body → NoSub env body

theorem apart_of_noSub {env : Env} {f : FnId} {body : List Node} (h : NoSub env body) : Apart env f body := by
  intro _ _ id' results' _ _ hr' _ _ _
  unfold Removed
  split
  · rename_i a ha
    split
    · rfl
    · rename_i ho; exact h id' results' a hr'.1 ha (by simpa using ho)
  · rfl

/-- A code of a called function comes out of the caller if nothing is removed. -/
theorem called_yields {N D : Type} {plan : N → Plan N D} {ρ : N → GoString → Prop} {f g : N} {c : GoString}
    (hn : (plan f).NoMinus) (hc : Calls plan f g) (h : ρ g c) : (plan f).Yields ρ c := by
  unfold Calls at hc
  generalize plan f = p at hn hc
  induction p with
  | codes s => simp [Plan.targets] at hc
  | report _ => simp [Plan.targets] at hc
  | panic _ => simp [Plan.targets] at hc
  | call x => simp only [Plan.targets, List.mem_singleton] at hc; subst hc; exact h
  | visit x => simp only [Plan.targets, List.mem_singleton] at hc; subst hc; exact h
  | union a b iha ihb =>
    simp only [Plan.targets, List.mem_append] at hc
    exact hc.imp (iha hn.1) (ihb hn.2)
  | minus a s ih => exact ⟨ih hn.1 (by simpa [Plan.targets] using hc), by rw [hn.2]; simp⟩

/-- The codes of the functions reachable from `f`. -/
theorem codes_derived {env : Env} {fuel : Nat} (hf : bound env ≤ fuel) (ascii : PrintsAscii env.isPrint) {f : FnId}
    (plain : ∀ g, Reach (Calls (plan env fuel)) f g → Plain env g)
    (calm : ∀ g, Reach (Calls (plan env fuel)) f g → (plan env fuel g).panics = false) {c : GoString} :
    CodesOf (plan env fuel) f c ↔ Derived env f c := by
  have body : ∀ g, Reach (Calls (plan env fuel)) f g → ∃ b, (env.func g).body = some b := by
    intro g hr
    cases hb : (env.func g).body with
    | some b => exact ⟨b, rfl⟩
    | none =>
      have : plan env fuel g = .panic "analyse.go:497: nil pointer dereference (function without body)" := by
        simp [plan, bodyPlan, hb]
      have h := calm g hr
      rw [this] at h; cases h
  have iff : ∀ g, Reach (Calls (plan env fuel)) f g → ∀ b, (env.func g).body = some b → ∀ ρ c,
      (plan env fuel g).Yields ρ c ↔ BodyCode env g b ρ c := fun g hr b hb ρ c =>
    body_codes ((plain g hr).regular b hb) ((plain g hr).typed b hb) ascii hf (apart_of_noSub ((plain g hr).noSub b hb)) (calm g hr)
  constructor
  · intro hc ρ hρ
    have key : ∀ g, Reach (Calls (plan env fuel)) f g → ∀ c, (plan env fuel g).Yields ρ c → ρ g c := by
      intro g hr c hy
      obtain ⟨b, hb⟩ := body g hr
      exact hρ g b c hb ((iff g hr b hb ρ c).1 hy)
    refine hc (fun g c => Reach (Calls (plan env fuel)) f g → ρ g c) ⟨fun g c hy hr => ?_, fun g x c hm hx hr => ?_⟩ (.refl f)
    · exact key g hr c (Edits.yields_local (fun z hz hk => hk (hr.trans (.step hz (.refl z)))) hy)
    · have hx' := hx (hr.trans hm.1)
      have back : ∀ {a b}, Reach (Calls (plan env fuel)) a b → Reach (Calls (plan env fuel)) f a → ρ b c → ρ a c := by
        intro a b hab
        induction hab with
        | refl a => exact fun _ h => h
        | @step a m b he _ ih =>
          intro hfa hb
          have hm := ih (hfa.trans (.step he (.refl m))) hb
          obtain ⟨bd, hbd⟩ := body a hfa
          exact key a hfa c (called_yields (((plain a hfa).regular bd hbd).noMinus hf ((plain a hfa).noSub bd hbd)) he hm)
      exact back hm.1 hr hx'
  · intro hd
    refine hd (fun g c => Reach (Calls (plan env fuel)) f g → CodesOf (plan env fuel) g c) (fun g b c hb hy hr => ?_) (.refl f)
    exact CodesOf.consistent.1 g c
      (Edits.yields_local (fun z hz hk => hk (hr.trans (.step hz (.refl z)))) ((iff g hr b hb _ c).2 hy))

variable {P : Package} {S : Schedule} {strict : Bool} {out : Outcome}

/-- **C64**, for a run: what is reported about the declaration of a function are exactly the differences between the declared codes and
the codes derived from the text of the functions it may call.

Partial: functions which can reach an annotation removing codes (where the least assignment is still that of
`Run.mismatches_exact_partial`), and those which can reach a literal calling back (`Settled`). -/
theorem mismatches_derived_partial (h : runVerify P S strict = .ok out) (hS : S.Fair) (ho : Objects P) (hp : Interfaces.Program P.ifaces)
    (ascii : PrintsAscii P.env.isPrint) {f : FnId} (settled : CallGraph.Settled (P.plan (during P out.facts)) f)
    (plain : ∀ g, Reach (Calls (P.plan (during P out.facts))) f g → Plain (P.at_ (during P out.facts)) g) (text : GoString) :
    (f, text) ∈ out.mismatches ↔ ∃ c missing unused, Compared P f c ∧
      Lists missing (fun x => Derived (P.at_ (during P out.facts)) f x ∧ x ∉ c.codes) ∧
      Lists unused (fun x => x ∈ c.codes ∧ ¬ Derived (P.at_ (during P out.facts)) f x) ∧
      (missing ≠ [] ∨ unused ≠ []) ∧ text = Reports.mismatchText missing unused := by
  rw [(mismatches_exact_partial h hS ho hp).1 f settled text]
  have same : ∀ c, Compared P f c → ∀ x, CodesOf (P.plan (during P out.facts)) f x ↔ Derived (P.at_ (during P out.facts)) f x := by
    intro c hc x
    refine codes_derived (env := P.at_ (during P out.facts)) (fuel := P.depth) (Nat.le_refl _) ascii plain fun g hr => ?_
    have ha : Analysed P out.facts g := ⟨f, c, hc, hr⟩
    have hl := looked_calm h hS ho hp (Adoption.looked ha)
    have : seen P out.facts g = P.plan (during P out.facts) g := by unfold seen; rw [if_pos ha]
    rw [this] at hl
    exact hl
  constructor
  · rintro ⟨c, missing, unused, hc, h1, h2, h3⟩
    have hs := same c hc
    exact ⟨c, missing, unused, hc, by simpa only [hs] using h1, by simpa only [hs] using h2, h3⟩
  · rintro ⟨c, missing, unused, hc, h1, h2, h3⟩
    have hs := same c hc
    exact ⟨c, missing, unused, hc, by simpa only [hs] using h1, by simpa only [hs] using h2, h3⟩

/-! ## Examples -/

/-- The codes of the steps of a plan. -/
def flat {N D : Type} : Plan N D → List GoString
  | .codes s => s
  | .union a b => flat a ++ flat b
  | .minus a _ => flat a
  | _ => []

theorem flat_yields {N D : Type} {ρ : N → GoString → Prop} {c : GoString} : ∀ {p : Plan N D}, p.NoMinus →
    (p.Yields ρ c ↔ c ∈ flat p ∨ ∃ g ∈ p.targets, ρ g c)
  | .codes s, _ => by simp [Plan.Yields, flat, Plan.targets]
  | .report _, _ => by simp [Plan.Yields, flat, Plan.targets]
  | .panic _, _ => by simp [Plan.Yields, flat, Plan.targets]
  | .call _, _ => by simp [Plan.Yields, flat, Plan.targets]
  | .visit _, _ => by simp [Plan.Yields, flat, Plan.targets]
  | .union a b, h => by
    simp only [Plan.Yields, flat, Plan.targets, flat_yields h.1, flat_yields h.2, List.mem_append]
    constructor
    · rintro ((h | ⟨g, h, k⟩) | (h | ⟨g, h, k⟩))
      · exact .inl (.inl h)
      · exact .inr ⟨g, .inl h, k⟩
      · exact .inl (.inr h)
      · exact .inr ⟨g, .inr h, k⟩
    · rintro ((h | h) | ⟨g, h | h, k⟩)
      · exact .inl (.inl h)
      · exact .inr (.inl h)
      · exact .inl (.inr ⟨g, h, k⟩)
      · exact .inr (.inr ⟨g, h, k⟩)
  | .minus a s, h => by
    have hs : s = [] := h.2
    subst hs
    simp only [Plan.Yields, flat, Plan.targets, flat_yields h.1]
    simp

/-- The function of `Props/BodyReports.lean`, with two codes to be found: the type has a code, and the field is assigned another. -/
def codesEnv : Env :=
  { BodyReports.exEnv with
    value := fun n => if n = 48 then some (.str b!"field-error") else none
    facts := ⟨fun _ => none, fun o => if o = 0 then some 0 else none,
      fun o => if o = 7 then some ⟨[b!"type-error"], some ⟨b!"TheCode", 0⟩⟩ else none, fun _ => none⟩ }

/-- The hypotheses of `body_codes_exact_partial` hold for this function; it has these two codes
(`g` does not return an error last). -/
example : Regular codesEnv 0 BodyReports.exBody ∧ Checked codesEnv 0 BodyReports.exBody ∧ Typed codesEnv 0 BodyReports.exBody ∧
    ¬ Crashes codesEnv 0 BodyReports.exBody ∧ Apart codesEnv 0 BodyReports.exBody ∧
    ∀ ρ c, BodyCode codesEnv 0 BodyReports.exBody ρ c ↔ c = b!"type-error" ∨ c = b!"field-error" := by
  have hr : Regular codesEnv 0 BodyReports.exBody := BodyReports.regular_of_simple rfl (by decide) (by
    intro position h
    have : importErrorConstructorFact codesEnv 0 = some 0 := rfl
    rw [this] at h; cases h; decide)
  have hch : Checked codesEnv 0 BodyReports.exBody := Crash.checked_of_simple (by decide) (by decide)
  have ht : Typed codesEnv 0 BodyReports.exBody := BodyReports.typed_of_simple (by decide) (by decide) (by decide)
  have hc : ¬ Crashes codesEnv 0 BodyReports.exBody := fun h => by
    have := (hr.panics_iff hch (Nat.le_refl _)).2 h
    revert this; decide
  have ha : Apart codesEnv 0 BodyReports.exBody := apart_of_noSub fun _ _ a _ h _ => by
    simp [codesEnv, BodyReports.exEnv, Tracking.plainEnv, getReturnStmtAnnotations] at h
  refine ⟨hr, hch, ht, hc, ha, fun ρ c => ?_⟩
  rw [← body_codes_exact_partial hr hch ht BodyReports.exEnv_ascii (Nat.le_refl _) hc ha]
  have e : (plan codesEnv (bound codesEnv) 0).Yields ρ c ↔ c ∈ flat (plan codesEnv (bound codesEnv) 0) ∨
      ∃ g ∈ (plan codesEnv (bound codesEnv) 0).targets, ρ g c := flat_yields (hr.noMinus (Nat.le_refl _) fun _ _ a _ h _ => by
    simp [codesEnv, BodyReports.exEnv, Tracking.plainEnv, getReturnStmtAnnotations] at h)
  have e1 : flat (plan codesEnv (bound codesEnv) 0) = [b!"type-error", b!"field-error"] := rfl
  have e2 : (plan codesEnv (bound codesEnv) 0).targets = [] := rfl
  rw [e, e1, e2]
  simp

/-! A run: the wrong declaration of `F` in `Props/Corrections.lean`. -/

theorem wrong_plain {g : FnId} (h : Reach (Calls (Run.wrong.plan (during Run.wrong Run.wrongOut.facts))) 0 g) :
    Plain (Run.wrong.at_ (during Run.wrong Run.wrongOut.facts)) g := by
  have key : g ∈ [0, 1, 2] := by
    have key : ∀ {a b : FnId}, Reach (Calls (Run.wrong.plan (during Run.wrong Run.wrongOut.facts))) a b → a ∈ [0, 1, 2] → b ∈ [0, 1, 2] := by
      intro a b hr
      induction hr with
      | refl => exact id
      | @step a b c hc _ ih =>
        intro ha
        refine ih ?_
        have all : ∀ a ∈ [0, 1, 2], ∀ b ∈ (Run.wrong.plan (during Run.wrong Run.wrongOut.facts) a).targets, b ∈ [0, 1, 2] := by
          intro a ha b hb
          simp only [List.mem_cons, List.not_mem_nil, or_false] at ha
          rcases ha with rfl | rfl | rfl
          · have e : (Run.wrong.plan (during Run.wrong Run.wrongOut.facts) 0).targets = [2, 1] := rfl
            rw [e] at hb; revert b; decide
          · have e : (Run.wrong.plan (during Run.wrong Run.wrongOut.facts) 1).targets = [] := rfl
            rw [e] at hb; cases hb
          · have e : (Run.wrong.plan (during Run.wrong Run.wrongOut.facts) 2).targets = [] := rfl
            rw [e] at hb; cases hb
        exact all a ha b hc
    exact key h (by decide)
  have noSub : ∀ body, NoSub (Run.wrong.at_ (during Run.wrong Run.wrongOut.facts)) body := fun _ _ _ a _ h _ => by
    simp [Package.at_, Package.start, Run.wrong, Package.documented, Run.pkg, Run.pkgEnv, Tracking.plainEnv, getReturnStmtAnnotations] at h
  simp only [List.mem_cons, List.not_mem_nil, or_false] at key
  rcases key with rfl | rfl | rfl
  · refine ⟨fun b hb => ?_, fun b hb => ?_, fun b _ => noSub b⟩
    · cases hb
      exact BodyReports.regular_of_simple rfl (by decide) (fun position h => by
        have : importErrorConstructorFact (Run.wrong.at_ (during Run.wrong Run.wrongOut.facts)) 0 = none := rfl
        rw [this] at h; cases h)
    · cases hb
      exact BodyReports.typed_of_simple (by decide) (by decide) (by decide)
  · refine ⟨fun b hb => ?_, fun b hb => ?_, fun b _ => noSub b⟩
    · cases hb
      exact BodyReports.regular_of_simple rfl (by decide) (fun position h => by
        have : importErrorConstructorFact (Run.wrong.at_ (during Run.wrong Run.wrongOut.facts)) 1 = some 0 := rfl
        rw [this] at h; cases h; decide)
    · cases hb
      exact BodyReports.typed_of_simple (by decide) (by decide) (by decide)
  · refine ⟨fun b hb => ?_, fun b hb => ?_, fun b _ => noSub b⟩
    · cases hb
      exact BodyReports.regular_of_simple rfl (by decide) (fun position h => by
        have : importErrorConstructorFact (Run.wrong.at_ (during Run.wrong Run.wrongOut.facts)) 2 = none := rfl
        rw [this] at h; cases h)
    · cases hb
      exact BodyReports.typed_of_simple (by decide) (by decide) (by decide)

theorem wrong_ascii : PrintsAscii Run.wrong.env.isPrint := fun r _ => by
  simp [Run.wrong, Package.documented, Run.pkg, Run.pkgEnv, Tracking.plainEnv]

/-- The hypotheses of `mismatches_derived_partial` hold for `F`: what is reported lists the codes derived from its text. -/
theorem wrong_derived : ∃ c missing unused, Compared Run.wrong 0 c ∧
      Lists missing (fun x => Derived (Run.wrong.at_ (during Run.wrong Run.wrongOut.facts)) 0 x ∧ x ∉ c.codes) ∧
      Lists unused (fun x => x ∈ c.codes ∧ ¬ Derived (Run.wrong.at_ (during Run.wrong Run.wrongOut.facts)) 0 x) ∧
      (missing ≠ [] ∨ unused ≠ []) ∧
      b!"missing codes: [b-error c-error] unused codes: [z-error]" = Reports.mismatchText missing unused :=
  (mismatches_derived_partial Run.wrong_ran Run.schedule_fair (Run.objects_documented Run.pkg_objects) Run.pkg_program wrong_ascii
    (Run.wrong_settled 0) (fun _ h => wrong_plain h) _).1 (by rw [Run.wrong_reports]; exact List.mem_singleton.2 rfl)

end Serum.Props.BodyCodes
