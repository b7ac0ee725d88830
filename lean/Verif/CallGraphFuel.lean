import Verif.CallGraphLemmas

/-!
# Termination of the search

The recursion depth is bounded by the number of functions not visited yet.
-/

set_option linter.unusedSectionVars false

namespace Serum
namespace Search
variable {N D : Type} [DecidableEq N] {plan : N → Plan N D}

/-- Number of functions of `U` that are not visited yet. -/
def unvisited (U : List N) (s : Scc N) : Nat := U.countP (fun x => (s.vertices x).isNone)

theorem unvisited_le {U : List N} {s s' : Scc N} (h : ∀ x, s.Vis x → s'.Vis x) :
    unvisited U s' ≤ unvisited U s := by
  unfold unvisited
  apply List.countP_mono_left
  intro x _ hx
  cases hv : s.vertices x with
  | none => rfl
  | some v =>
    have := h x (by simp [Scc.Vis, hv])
    simp [Scc.Vis] at this hx
    exact absurd hx this

theorem unvisited_lt {U : List N} {s s' : Scc N} (h : ∀ x, s.Vis x → s'.Vis x) {f : N}
    (hf : f ∈ U) (hn : ¬ s.Vis f) (hv : s'.Vis f) : unvisited U s' < unvisited U s := by
  induction U with
  | nil => simp at hf
  | cons a U ih =>
    have hle := unvisited_le (U := U) h
    simp only [unvisited, List.countP_cons] at hle ih ⊢
    by_cases ha : a = f
    · subst ha
      have h1 : (s.vertices a).isNone = true := by simpa [Scc.Vis] using hn
      have h2 : (s'.vertices a).isNone = false := by simpa [Scc.Vis, Option.ne_none_iff_isSome] using hv
      simp only [h1, h2, if_true]
      simp
      omega
    · have hfU : f ∈ U := (List.mem_cons.1 hf).resolve_left (fun e => ha e.symm)
      have := ih hfU
      have h3 : (s'.vertices a).isNone = true → (s.vertices a).isNone = true := by
        intro hx
        cases hv : s.vertices a with
        | none => rfl
        | some v =>
          have := h a (by simp [Scc.Vis, hv])
          simp [Scc.Vis] at this hx
          exact absurd hx this
      by_cases hc : (s'.vertices a).isNone = true
      · simp only [hc, h3 hc, if_true]; omega
      · simp only [hc]
        split <;> simp_all <;> omega

/-- The result is not `outOfFuel`, and no visited function is forgotten. -/
def Fuelled (st : Search N D) (r : Except Stop (CodeSet × Search N D)) : Prop :=
  match r with
  | .ok a => ∀ x, st.scc.Vis x → a.2.scc.Vis x
  | .error e => e ≠ .outOfFuel

theorem setVertex_vis {s : Scc N} {f : N} {v : Vertex} {x : N} (h : s.Vis x) :
    (s.setVertex f v).Vis x := by
  by_cases hx : x = f <;> simp_all [Scc.Vis, Scc.setVertex]

theorem handleEdge_vis {s s' : Scc N} {a b : N} {r : Bool} (h : s.handleEdge a b = .ok (r, s'))
    {x : N} (hx : s.Vis x) : s'.Vis x := by
  unfold Scc.handleEdge at h
  split at h
  · cases h; exact hx
  · split at h
    · split at h
      · cases h
      · cases h; exact setVertex_vis hx
    · cases h; exact hx

theorem afterRecurse_vis {s s' : Scc N} {a b : N} (h : s.afterRecurse a b = .ok s')
    {x : N} (hx : s.Vis x) : s'.Vis x := by
  unfold Scc.afterRecurse at h
  split at h
  · cases h; exact setVertex_vis hx
  · cases h

theorem endVisit_vis {s s' : Scc N} {a : N} {c : Option (List N)}
    (h : s.endVisit a = .ok (c, s')) {x : N} (hx : s.Vis x) : s'.Vis x := by
  unfold Scc.endVisit at h
  split at h
  · cases h
  · split at h
    · cases h; exact hx
    · split at h
      · cases h
      · cases h
        simp only [Scc.Vis, Scc.clear]
        split <;> simp_all [Scc.Vis]

theorem handleEdge_stop {s : Scc N} {a b : N} {e : Stop} (h : s.handleEdge a b = .error e) :
    e ≠ .outOfFuel := by
  unfold Scc.handleEdge at h
  split at h
  · cases h
  · split at h
    · split at h <;> cases h
      simp
    · cases h

theorem afterRecurse_stop {s : Scc N} {a b : N} {e : Stop} (h : s.afterRecurse a b = .error e) :
    e ≠ .outOfFuel := by
  unfold Scc.afterRecurse at h
  split at h <;> cases h
  simp

theorem endVisit_stop {s : Scc N} {a : N} {e : Stop} (h : s.endVisit a = .error e) :
    e ≠ .outOfFuel := by
  unfold Scc.endVisit at h
  split at h
  · cases h; simp
  · split at h
    · cases h
    · split at h <;> cases h
      simp

theorem exec_fuelled {U : List N} {n : Nat}
    {recurse : N → Search N D → Except Stop (CodeSet × Search N D)}
    (hrec : ∀ g st, g ∈ U → unvisited U st.scc < n → Fuelled st (recurse g st)) (f : N) :
    ∀ (p : Plan N D) (st : Search N D), (∀ z ∈ p.targets, z ∈ U) → unvisited U st.scc < n →
      Fuelled st (exec recurse f p st) := by
  intro p
  induction p with
  | codes s => intro st _ _ x hx; exact hx
  | report d => intro st _ _ x hx; exact hx
  | panic loc => intro st _ _; simp [exec, Fuelled]
  | call g =>
    intro st ht hn
    unfold exec
    cases hh : st.scc.handleEdge f g with
    | error e => exact handleEdge_stop hh
    | ok r =>
      obtain ⟨b, scc⟩ := r
      have hv : ∀ x, st.scc.Vis x → scc.Vis x := fun x hx => handleEdge_vis hh hx
      simp only [bind, Except.bind]
      cases b with
      | false => intro x hx; exact hv x hx
      | true =>
        simp only [if_true]
        have h1 := hrec g { st with scc := scc } (ht g (by simp [Plan.targets]))
          (Nat.lt_of_le_of_lt (unvisited_le hv) hn)
        cases hr : recurse g { st with scc := scc } with
        | error e => rw [hr] at h1; exact h1
        | ok r =>
          rw [hr] at h1
          obtain ⟨R, st₂⟩ := r
          dsimp only
          cases ha : st₂.scc.afterRecurse f g with
          | error e => exact afterRecurse_stop ha
          | ok s => intro x hx; exact afterRecurse_vis ha (h1 x (hv x hx))
  | visit g =>
    intro st ht hn
    exact hrec g st (ht g (by simp [Plan.targets])) hn
  | union a b iha ihb =>
    intro st ht hn
    have h1 := iha st (fun z hz => ht z (by simp [Plan.targets, hz])) hn
    unfold exec
    cases ha : exec recurse f a st with
    | error e => rw [ha] at h1; exact h1
    | ok r =>
      rw [ha] at h1
      obtain ⟨x, st₁⟩ := r
      have h2 := ihb st₁ (fun z hz => ht z (by simp [Plan.targets, hz]))
        (Nat.lt_of_le_of_lt (unvisited_le h1) hn)
      simp only [bind, Except.bind]
      cases hb : exec recurse f b st₁ with
      | error e => rw [hb] at h2; exact h2
      | ok r =>
        rw [hb] at h2
        exact fun y hy => h2 y (h1 y hy)
  | minus a s iha =>
    intro st ht hn
    have h1 := iha st ht hn
    unfold exec
    cases ha : exec recurse f a st with
    | error e => rw [ha] at h1; exact h1
    | ok r => rw [ha] at h1; exact h1

theorem findInFunc_fuelled {U : List N} (hU : ∀ f ∈ U, ∀ z ∈ (plan f).targets, z ∈ U) :
    ∀ (fuel : Nat) (f : N) (st : Search N D), f ∈ U → unvisited U st.scc < fuel →
      Fuelled st (findInFunc plan fuel f st) := by
  intro fuel
  induction fuel with
  | zero => intro f st _ h; omega
  | succ n ih =>
    intro f st hf hn
    unfold findInFunc Scc.visit
    cases hv : st.scc.vertices f with
    | some v => simp [bind, Except.bind, Fuelled]
    | none =>
      simp only [bind, Except.bind]
      generalize hs : (Scc.mk (st.scc.index + 1)
        (st.scc.setVertex f ⟨st.scc.index, st.scc.index, true⟩).vertices (f :: st.scc.stack)) = s1
      have hmono : ∀ x, st.scc.Vis x → s1.Vis x := by
        intro x hx; subst hs; exact setVertex_vis hx
      have hlt : unvisited U s1 < unvisited U st.scc := by
        refine unvisited_lt hmono hf (by simp [Scc.Vis, hv]) ?_
        subst hs; simp [Scc.Vis, Scc.setVertex]
      have h1 := exec_fuelled (n := n) ih f (plan f) { st with scc := s1 } (hU f hf)
        (by show unvisited U s1 < n; omega)
      cases he : exec (findInFunc plan n) f (plan f) { st with scc := s1 } with
      | error e => rw [he] at h1; exact h1
      | ok r =>
        rw [he] at h1
        obtain ⟨R, st₂⟩ := r
        dsimp only
        cases hend : (st₂.setFound f R).scc.endVisit f with
        | error e => exact endVisit_stop hend
        | ok r =>
          obtain ⟨c, scc⟩ := r
          have h2 : ∀ x, st.scc.Vis x → scc.Vis x := fun x hx =>
            endVisit_vis hend (h1 x (hmono x hx))
          cases c with
          | none => exact h2
          | some C =>
            intro x hx
            have := (unify_scc ({ (st₂.setFound f R) with
              scc := scc, comps := (st₂.setFound f R).comps ++ [C] } : Search N D) C).1
            show (unify _ C).2.scc.Vis x
            rw [this]; exact h2 x hx

end Search
end Serum
