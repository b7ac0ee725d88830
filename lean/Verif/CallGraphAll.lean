import Verif.CallGraphLemmas
import Verif.AnalyseLemmas

/-! # Only codes occurring in plans are found -/

namespace Serum
namespace Search
variable {N D : Type} [DecidableEq N] {P : GoString → Prop} {plan : N → Plan N D}

/-- All codes written down in the plan satisfy `P`. -/
def CodesAll (P : GoString → Prop) (p : Plan N D) : Prop := ∀ s, .codes s ∈ p.leaves → ∀ c ∈ s, P c

/-- All codes found so far satisfy `P`. -/
def FoundAll (P : GoString → Prop) (st : Search N D) : Prop := ∀ f s, st.found f = some s → ∀ c ∈ s, P c

/-- The result, if there is one, satisfies `P`, and so do all codes found. -/
def OutAll (P : GoString → Prop) (r : Except Stop (CodeSet × Search N D)) : Prop :=
  ∀ s st, r = .ok (s, st) → (∀ c ∈ s, P c) ∧ FoundAll P st

theorem FoundAll.setFound {st : Search N D} (h : FoundAll P st) {f : N} {s : CodeSet} (hs : ∀ c ∈ s, P c) :
    FoundAll P (st.setFound f s) := by
  intro g t hg
  simp only [Search.setFound] at hg
  split at hg
  · cases hg; exact hs
  · exact h g t hg

omit [DecidableEq N] in
theorem FoundAll.getD {st : Search N D} (h : FoundAll P st) (f : N) : ∀ c ∈ (st.found f).getD [], P c := by
  cases hf : st.found f with
  | none => simp
  | some s => exact h f s hf

theorem unify_all {st : Search N D} (h : FoundAll P st) (comp : List N) :
    (∀ c ∈ (st.unify comp).1, P c) ∧ FoundAll P (st.unify comp).2 := by
  have h1 : ∀ (l : List N) (r : CodeSet), (∀ c ∈ r, P c) →
      ∀ c ∈ l.foldl (fun r f => CodeSet.union r ((st.found f).getD [])) r, P c := by
    intro l
    induction l with
    | nil => intro r hr; exact hr
    | cons f l ih =>
      intro r hr
      refine ih _ fun c hc => ?_
      rw [CodeSet.mem_union] at hc
      exact hc.elim (hr c) (h.getD f c)
  have h1 := h1 comp [] (by simp)
  refine ⟨h1, ?_⟩
  have h2 : ∀ (R : CodeSet), (∀ c ∈ R, P c) → ∀ (l : List N) (st : Search N D), FoundAll P st →
      FoundAll P (l.foldl (fun st f => st.setFound f R) st) := by
    intro R hR l
    induction l with
    | nil => intro st h; exact h
    | cons f l ih => intro st h; exact ih _ (h.setFound hR)
  exact h2 _ h1 comp st h

theorem exec_all {recurse : N → Search N D → Except Stop (CodeSet × Search N D)} {cur : N}
    (hr : ∀ g st, FoundAll P st → OutAll P (recurse g st)) :
    ∀ (p : Plan N D), CodesAll P p → ∀ st, FoundAll P st → OutAll P (exec recurse cur p st) := by
  intro p
  induction p with
  | codes s =>
    intro hp st hst s' st' h
    simp only [exec] at h; cases h
    exact ⟨hp s (by simp [Plan.leaves]), hst⟩
  | report d =>
    intro hp st hst s' st' h
    simp only [exec] at h; cases h
    exact ⟨by simp, hst⟩
  | panic l => intro hp st hst s' st' h; simp [exec] at h
  | call g =>
    intro hp st hst s' st' h
    simp only [exec, bind, Except.bind] at h
    split at h
    · cases h
    · rename_i r _
      split at h
      · split at h
        · cases h
        · rename_i r' hr'
          split at h
          · cases h
          · simp only [pure, Except.pure] at h
            cases h
            have := hr g { st with scc := r.2 } hst r'.1 r'.2 hr'
            exact ⟨this.1, this.2⟩
      · simp only [pure, Except.pure] at h
        cases h
        exact ⟨FoundAll.getD (st := { st with scc := r.2 }) hst g, hst⟩
  | visit g => intro hp st hst; exact hr g st hst
  | union a b iha ihb =>
    intro hp st hst s' st' h
    simp only [exec, bind, Except.bind] at h
    split at h
    · cases h
    · rename_i r hra
      split at h
      · cases h
      · rename_i r' hrb
        simp only [pure, Except.pure] at h
        cases h
        have h1 := iha (fun s hs => hp s (by simp [Plan.leaves, hs])) st hst r.1 r.2 hra
        have h2 := ihb (fun s hs => hp s (by simp [Plan.leaves, hs])) r.2 h1.2 r'.1 r'.2 hrb
        refine ⟨fun c hc => ?_, h2.2⟩
        rw [CodeSet.mem_union] at hc
        exact hc.elim (h1.1 c) (h2.1 c)
  | minus a s ih =>
    intro hp st hst s' st' h
    simp only [exec, bind, Except.bind] at h
    split at h
    · cases h
    · rename_i r hra
      simp only [pure, Except.pure] at h
      cases h
      have h1 := ih hp st hst r.1 r.2 hra
      refine ⟨fun c hc => ?_, h1.2⟩
      rw [CodeSet.mem_diff] at hc
      exact h1.1 c hc.1

theorem findInFunc_all (hp : ∀ f, CodesAll P (plan f)) : ∀ (n : Nat) (f : N) (st : Search N D), FoundAll P st →
    OutAll P (findInFunc plan n f st) := by
  intro n
  induction n with
  | zero => intro f st _ s' st' h; simp [findInFunc] at h
  | succ n ih =>
    intro f st hst s' st' h
    simp only [findInFunc, bind, Except.bind] at h
    split at h
    · cases h
    · rename_i scc _
      split at h
      · cases h
      · rename_i r hr
        have h1 := exec_all (fun g st hst => ih g st hst) (plan f) (hp f) { st with scc := scc } hst r.1 r.2 hr
        have h2 := h1.2.setFound (f := f) h1.1
        split at h
        · cases h
        · rename_i r' _
          split at h
          · simp only [pure, Except.pure] at h
            cases h
            exact ⟨h1.1, h2⟩
          · rename_i comp _
            simp only [pure, Except.pure] at h
            have h3 := unify_all (st := { ({ r.2.setFound f r.1 with scc := r'.2 } : Search N D) with
              comps := ({ r.2.setFound f r.1 with scc := r'.2 } : Search N D).comps ++ [comp] }) h2 comp
            rw [Except.ok.injEq] at h
            rw [h] at h3
            exact h3

theorem findAll_all (hp : ∀ f, CodesAll P (plan f)) (n : Nat) : ∀ (order : List N) (st : Search N D), FoundAll P st →
    ∀ results st', findAll plan n order st = .ok (results, st') →
      (∀ f s, (f, s) ∈ results → ∀ c ∈ s, P c) ∧ FoundAll P st' := by
  intro order
  induction order with
  | nil => intro st hst results st' h; simp only [findAll] at h; cases h; exact ⟨by simp, hst⟩
  | cons f order ih =>
    intro st hst results st' h
    simp only [findAll, bind, Except.bind] at h
    split at h
    · cases h
    · rename_i r hr
      split at h
      · cases h
      · rename_i r' hr'
        simp only [pure, Except.pure] at h
        cases h
        have h1 : (∀ c ∈ r.1, P c) ∧ FoundAll P r.2 := by
          unfold findCached at hr
          split at hr
          · rename_i s hs
            cases hr
            exact ⟨hst f s hs, hst⟩
          · exact findInFunc_all hp n f st hst r.1 r.2 hr
        have h2 := ih r.2 h1.2 r'.1 r'.2 hr'
        refine ⟨fun g s hg => ?_, h2.2⟩
        simp only [List.mem_cons, Prod.mk.injEq] at hg
        rcases hg with ⟨rfl, rfl⟩ | hg
        · exact h1.1
        · exact h2.1 g s hg

end Search
end Serum
