import Verif.SoundText

/-! # Soundness, for calls -/

namespace Serum
namespace Runtime
open Flow Analyse Taint Props.Calls Props.Extract Props.Claims

variable {env : Env} {X : Extra} {fuel : Nat} {f : FnId} {body : List Node}

/-- All steps may occur in a silent run. -/
def Calm (p : BodyPlan) : Prop := ∀ l ∈ p.leaves, Quiet l

/-- The steps are steps of the function. -/
def Part (env : Env) (fuel : Nat) (f : FnId) (p : BodyPlan) : Prop :=
  ∀ l ∈ p.leaves, l = .codes [] ∨ l ∈ (plan env fuel f).leaves

theorem quiet_codes (s : CodeSet) : Quiet (.codes s) := ⟨by simp, by simp⟩

theorem Fine.part (h : Fine env X fuel f body) {p : BodyPlan} (hp : Part env fuel f p) : Calm p := by
  intro l hl
  rcases hp l hl with rfl | hl
  · exact quiet_codes _
  · exact h.leaf hl

theorem Calm.left {p q : BodyPlan} (h : Calm (.union p q)) : Calm p := fun l hl => h l (by simp [Plan.leaves, hl])
theorem Calm.right {p q : BodyPlan} (h : Calm (.union p q)) : Calm q := fun l hl => h l (by simp [Plan.leaves, hl])
theorem Calm.not_report {d : Diag} (h : Calm (.report d)) : False := (h _ (by simp [Plan.leaves])).1 d rfl
theorem Calm.not_panic {s : String} (h : Calm (.panic s)) : False := (h _ (by simp [Plan.leaves])).2 s rfl

theorem Calm.reports {ds : List Diag} (h : Calm (reports ds)) : ds = [] := by
  cases ds with
  | nil => rfl
  | cons d ds =>
    refine absurd rfl ((h (.report d) ?_).1 d)
    rw [reports_leaves]
    exact .inr ⟨d, by simp, rfl⟩

theorem Part.left {p q : BodyPlan} (h : Part env fuel f (.union p q)) : Part env fuel f p := fun l hl => h l (by simp [Plan.leaves, hl])
theorem Part.right {p q : BodyPlan} (h : Part env fuel f (.union p q)) : Part env fuel f q := fun l hl => h l (by simp [Plan.leaves, hl])

theorem Part.target {p : BodyPlan} (h : Part env fuel f p) {g : FnId} (hg : g ∈ p.targets) : Calls (plan env fuel) f g := by
  unfold Calls
  rw [Plan.mem_targets] at hg ⊢
  rcases hg with hg | hg
  · exact .inl ((h _ hg).resolve_left (by simp))
  · exact .inr ((h _ hg).resolve_left (by simp))

theorem foundCode_yields (x : Found) (ρ : FnId → GoString → Prop) (c : GoString) (h : x.1 = some c) : (foundCode x).Yields ρ c := by
  refine .inr ?_
  simp [Plan.Yields, h]

/-- What a call without reports or panics consists of. -/
theorem functionCall_inv {lambdas : Ident → Except Stop BodyPlan} {fn : Node} {callee : Option Object}
    {ce : Option (NodeId × List Node)} {q : BodyPlan} (h : functionCall env f lambdas fn callee ce = .ok q) (hq : Calm q) :
    ∃ ctor, extractErrorCodeFromConstructorCall env f fn.id callee (ce.map Prod.snd) = .ok ctor ∧ ctor.2 = [] ∧
      ((∃ S, callee.bind env.facts.codes = some S ∧ ∀ ρ c, (c ∈ S ∨ ctor.1 = some c) → q.Yields ρ c) ∨
       (callee.bind env.facts.codes = none ∧ ce.isSome = true ∧ callee = none ∧ extractErrorCodesFromTypeConversion env fn ≠ [] ∧
          ∀ ρ c, c ∈ extractErrorCodesFromTypeConversion env fn → q.Yields ρ c) ∨
       (callee.bind env.facts.codes = none ∧ (ce.isSome = true → callee = none → extractErrorCodesFromTypeConversion env fn = []) ∧
          ((∃ ds p, calledFunction env f lambdas fn ce = .ok (.inl p) ∧ q = .union (reports ds) p) ∨
           (∃ g, calledFunction env f lambdas fn ce = .ok (.inr (some g)) ∧ g ∈ q.targets ∧
              ∀ ρ c, (ρ g c ∨ ctor.1 = some c) → q.Yields ρ c)))) := by
  unfold functionCall lift at h
  split at h
  · rename_i ctor hctor
    split at h
    · rename_i codes hcodes
      cases h
      refine ⟨ctor, hctor, hq.left.left.reports, .inl ⟨codes, hcodes, fun ρ c hc => ?_⟩⟩
      rcases hc with hc | hc
      · exact .inr hc
      · exact .inl (foundCode_yields _ _ _ hc)
    · rename_i hcodes
      dsimp only at h
      generalize hcv : (if ce.isSome = true ∧ callee = none then extractErrorCodesFromTypeConversion env fn else []) = cc at h
      split at h
      · rename_i hconv
        cases h
        by_cases hc : ce.isSome = true ∧ callee = none
        · rw [if_pos hc] at hcv
          subst hcv
          exact ⟨ctor, hctor, hq.left.left.reports, .inr (.inl ⟨hcodes, hc.1, hc.2, hconv, fun ρ c h => .inr h⟩)⟩
        · rw [if_neg hc] at hcv; exact absurd hcv.symm hconv
      · rename_i hconv
        have hconv' : ce.isSome = true → callee = none → extractErrorCodesFromTypeConversion env fn = [] := by
          intro h1 h2
          rw [if_pos ⟨h1, h2⟩] at hcv
          rw [hcv]
          exact Classical.byContradiction hconv
        simp only [bind, Except.bind] at h
        split at h
        · cases h
        · rename_i r hr
          split at h
          · rename_i p
            simp only [pure, Except.pure] at h
            cases h
            exact ⟨ctor, hctor, hq.left.reports, .inr (.inr ⟨hcodes, hconv', .inl ⟨_, _, hr, rfl⟩⟩)⟩
          · rename_i g
            simp only [pure, Except.pure] at h
            cases h
            refine ⟨ctor, hctor, hq.left.left.reports, .inr (.inr ⟨hcodes, hconv', .inr ⟨g, hr, ?_, fun ρ c hc => ?_⟩⟩)⟩
            · rw [Plan.mem_targets]; exact .inl (by simp [Plan.leaves])
            · rcases hc with hc | hc
              · exact .inr hc
              · exact .inl (foundCode_yields _ _ _ hc)
          · simp only [pure, Except.pure] at h
            cases h
            exact absurd hq.right Calm.not_report
  · cases h; exact absurd hq Calm.not_panic
  · cases h

/-- The called function, when nothing is reported. -/
theorem calledFunction_inv {lambdas : Ident → Except Stop BodyPlan} {fn : Node} {ce : Option (NodeId × List Node)}
    {r : BodyPlan ⊕ Option FnId} (h : calledFunction env f lambdas fn ce = .ok r) (hr : ∀ p, r = .inl p → Calm p) :
    (∃ g, r = .inr (some g) ∧ Defined env fn g) ∨ r = .inr none ∨
    (∃ i x, fn.unparen = .ident i ∧ i.obj = some x ∧ (env.object x).decl = .typeSpec ∧
      ∃ p, r = .inl p ∧ ∀ id args, ce = some (id, args) → p = founds (extractErrorCodesFromAffector env f (.call id fn args))) ∨
    (∃ i x p, fn.unparen = .ident i ∧ i.obj = some x ∧ (env.object x).decl ≠ .typeSpec ∧
      (∀ g, (env.object x).decl ≠ .funcDecl g) ∧ lambdas i = .ok p ∧ r = .inl p) := by
  unfold calledFunction at h
  split at h
  · rename_i i hi
    split at h
    · rename_i ho
      split at h
      · rename_i g hg
        cases h
        exact .inl ⟨g, rfl, .inr (.inl ⟨i, hi, ho, hg⟩)⟩
      · cases h; exact absurd (hr _ rfl) Calm.not_report
    · rename_i o ho
      split at h
      · rename_i g hg
        cases h
        exact .inl ⟨g, rfl, .inl ⟨i, o, hi, ho, hg⟩⟩
      · rename_i hd
        refine .inr (.inr (.inl ⟨i, o, hi, ho, hd, ?_⟩))
        split at h
        · cases h; exact ⟨_, rfl, fun id args h => by cases h; rfl⟩
        · cases h; exact ⟨_, rfl, fun id args h => (nomatch h)⟩
      · rename_i h1 h2
        simp only [bind, Except.bind] at h
        split at h
        · cases h
        · rename_i p hp
          simp only [pure, Except.pure] at h
          cases h
          exact .inr (.inr (.inr ⟨i, o, p, hi, ho, h2, h1, hp, rfl⟩))
  · rename_i id x sel hfn
    dsimp only at h
    split at h
    · cases h; exact absurd (hr _ rfl) Calm.not_report
    · rename_i hpkg
      split at h
      · cases h; exact absurd (hr _ rfl) Calm.not_panic
      · rename_i recv o hsel
        cases hm : env.searchMethod recv sel.name with
        | none => rw [hm] at h; cases h; exact .inr (.inl rfl)
        | some g =>
          rw [hm] at h
          cases h
          refine .inl ⟨g, rfl, .inr (.inr (.inl ⟨id, x, sel, recv, o, hfn, fun t ht => ?_, hsel, hm⟩))⟩
          rw [ht] at hpkg
          exact hpkg
  · rename_i hfn
    cases h
    exact .inl ⟨_, rfl, .inr (.inr (.inr ⟨_, _, _, hfn⟩))⟩
  · cases h; exact absurd (hr _ rfl) Calm.not_report

/-- A name or expression denotes one function. -/
theorem Defined.unique {fn : Node} {g g' : FnId} (h : Defined env fn g) (h' : Defined env fn g') : g = g' := by
  rcases h with ⟨i, o, hfn, hi, hd⟩ | ⟨i, hfn, hi, hd⟩ | ⟨sid, x, sel, recv, so, hfn, hp, hsel, hm⟩ | ⟨lid, type, b, hfn⟩ <;>
  rcases h' with ⟨i', o', hfn', hi', hd'⟩ | ⟨i', hfn', hi', hd'⟩ | ⟨sid', x', sel', recv', so', hfn', hp', hsel', hm'⟩ | ⟨lid', type', b', hfn'⟩ <;>
  (rw [hfn] at hfn'; cases hfn') <;> simp_all

end Runtime
end Serum
