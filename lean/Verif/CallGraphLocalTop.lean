import Verif.CallGraphLemmas

/-!
# The search from the top level, in any program

As `CallGraphTop.lean`, but function literals may call back: everything found is derivable, and the codes of the functions in
`G` (from which no literal calling back can be reached) are exact.
-/

set_option linter.unusedSectionVars false

namespace Serum
namespace Search
variable {N D : Type} [DecidableEq N] {plan : N → Plan N D} {G : N → Prop}

theorem InvG.stack_nil {st : Search N D} (h : InvG G plan [] st) : st.scc.stack = [] := by
  cases hs : st.scc.stack with
  | nil => rfl
  | cons a l =>
    obtain ⟨g, hg, _⟩ := h.toTop a (by simp [hs])
    simp at hg

/-- At the top level a function in `G` that has been visited has exactly its codes. -/
theorem InvG.codes {st : Search N D} (h : InvG G plan [] st) {x : N} (hG : G x) {S : CodeSet} (hS : st.found x = some S) (c : GoString) :
    c ∈ S ↔ CodesOf plan x c := by
  obtain ⟨S', hS', hall⟩ := h.complete x hG (h.found_vis x S hS).1 (by simp [h.stack_nil])
  rw [hS] at hS'; cases hS'
  exact ⟨h.sound x S hS c, hall c⟩

theorem InvG.closed {st : Search N D} (h : InvG G plan [] st) {x y : N}
    (hr : Reach (Calls plan) x y) (hx : st.scc.Vis x) : st.scc.Vis y :=
  Reach.closed (S := st.scc.Vis) (fun a b ha hab => h.black a ha (by simp) b hab) hr hx

/-- A cached or fresh top-level search. -/
theorem findCached_specG (hG : ∀ x y, G x → Calls plan x y → G y)
    (hlit : ∀ f, G f → ∀ z ∈ (plan f).visits, ¬ Reach (Calls plan) z f)
    (fuel : Nat) (f : N) (st : Search N D) (h : InvG G plan [] st) :
    Holds plan (findCached plan fuel f st) (fun r => InvG G plan [] r.2 ∧ r.2.found f = some r.1 ∧
      (∀ x, r.2.scc.Vis x ↔ st.scc.Vis x ∨ Reach (Calls plan) f x)) := by
  unfold findCached
  cases hf : st.found f with
  | some S =>
    have hv := (h.found_vis f S hf).1
    exact ⟨h, hf, fun x => ⟨.inl, fun hx => hx.elim id (fun hr => h.closed hr hv)⟩⟩
  | none =>
    have hnv : ¬ st.scc.Vis f := by
      intro hv
      obtain ⟨S, hS⟩ := h.has f hv (by simp)
      simp [hf] at hS
    have h1 := findInFunc_specG hG hlit fuel [] f st h hnv (by simp)
    dsimp only
    cases hr : findInFunc plan fuel f st with
    | error e => rw [hr] at h1; exact h1
    | ok r =>
      rw [hr] at h1
      obtain ⟨R, st'⟩ := r
      have hp : PostFG G plan [] f st R st' := h1
      refine ⟨hp.inv, hp.res, fun x => ?_⟩
      · exact ⟨hp.reach x, fun hx => hx.elim (hp.frame.vis x) (fun hr => hp.inv.closed hr hp.visf)⟩

/-- The loop over the functions with claims. -/
theorem findAll_specG (hG : ∀ x y, G x → Calls plan x y → G y)
    (hlit : ∀ f, G f → ∀ z ∈ (plan f).visits, ¬ Reach (Calls plan) z f) (fuel : Nat) :
    ∀ (fs : List N) (st : Search N D), InvG G plan [] st →
    Holds plan (findAll plan fuel fs st) (fun r => InvG G plan [] r.2 ∧ r.1.map Prod.fst = fs ∧
      (∀ f S, (f, S) ∈ r.1 → (∀ c ∈ S, CodesOf plan f c) ∧ (∀ c, (plan f).Yields (fun _ _ => False) c → c ∈ S) ∧
        (G f → ∀ c, CodesOf plan f c → c ∈ S)) ∧
      (∀ x, r.2.scc.Vis x ↔ st.scc.Vis x ∨ ∃ f ∈ fs, Reach (Calls plan) f x)) := by
  intro fs
  induction fs with
  | nil => intro st h; exact ⟨h, rfl, by simp, by simp⟩
  | cons f fs ih =>
    intro st h
    unfold findAll
    refine Holds.bind (findCached_specG hG hlit fuel f st h) ?_
    rintro ⟨S, st₁⟩ ⟨h1, h2, h3⟩
    refine Holds.bind (ih st₁ h1) ?_
    rintro ⟨rs, st₂⟩ ⟨h4, h5, h6, h7⟩
    refine ⟨h4, by simpa using h5, ?_, ?_⟩
    · intro g T hg
      rcases List.mem_cons.1 hg with e | hg
      · cases e
        exact ⟨h1.sound _ _ h2, h1.own _ _ h2, fun hGf c hc => (h1.codes hGf h2 c).2 hc⟩
      · exact h6 g T hg
    · intro x
      dsimp only at h3 h7 ⊢
      rw [h7, h3]
      simp [or_assoc]

end Search
end Serum
