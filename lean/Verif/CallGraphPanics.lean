import Verif.CallGraphTop
import Verif.CallGraphFuel
import Verif.Props.CallGraph

/-! # A run that ends has not met a panic -/

namespace Serum
namespace Search
variable {N D : Type} [DecidableEq N] {plan : N → Plan N D}

theorem setVertex_vis_back {s : Scc N} {f : N} {v w : Vertex} (hf : s.vertices f = some w) {x : N}
    (h : (s.setVertex f v).Vis x) : s.Vis x := by
  by_cases hx : x = f <;> simp_all [Scc.Vis, Scc.setVertex]

theorem handleEdge_vis_back {s s' : Scc N} {a b : N} {r : Bool} (h : s.handleEdge a b = .ok (r, s'))
    {x : N} (hx : s'.Vis x) : s.Vis x := by
  unfold Scc.handleEdge at h
  split at h
  · cases h; exact hx
  · split at h
    · split at h
      · cases h
      · rename_i hf; cases h; exact setVertex_vis_back hf hx
    · cases h; exact hx

theorem afterRecurse_vis_back {s s' : Scc N} {a b : N} (h : s.afterRecurse a b = .ok s')
    {x : N} (hx : s'.Vis x) : s.Vis x := by
  unfold Scc.afterRecurse at h
  split at h
  · rename_i hf _; cases h; exact setVertex_vis_back hf hx
  · cases h

theorem endVisit_vis_back {s s' : Scc N} {a : N} {c : Option (List N)}
    (h : s.endVisit a = .ok (c, s')) {x : N} (hx : s'.Vis x) : s.Vis x := by
  unfold Scc.endVisit at h
  split at h
  · cases h
  · split at h
    · cases h; exact hx
    · split at h
      · cases h
      · cases h
        simp only [Scc.Vis, Scc.clear] at hx ⊢
        split at hx <;> simp_all

/-- The functions visited by a step have plans without panics. -/
def Calm (plan : N → Plan N D) (st : Search N D) (st' : Search N D) : Prop :=
  ∀ x, st'.scc.Vis x → st.scc.Vis x ∨ (plan x).panics = false

theorem Calm.trans {st₁ st₂ st₃ : Search N D} (h₁ : Calm plan st₁ st₂) (h₂ : Calm plan st₂ st₃) : Calm plan st₁ st₃ :=
  fun x hx => (h₂ x hx).elim (h₁ x) .inr

theorem exec_calm {recurse : N → Search N D → Except Stop (CodeSet × Search N D)}
    (hrec : ∀ g st r, recurse g st = .ok r → Calm plan st r.2) (f : N) :
    ∀ (p : Plan N D) (st : Search N D) r, exec recurse f p st = .ok r → p.panics = false ∧ Calm plan st r.2 := by
  intro p
  induction p with
  | codes s => intro st r h; cases h; exact ⟨rfl, fun _ h => .inl h⟩
  | report d => intro st r h; cases h; exact ⟨rfl, fun _ h => .inl h⟩
  | panic loc => intro st r h; cases h
  | call g =>
    intro st r h
    refine ⟨rfl, ?_⟩
    unfold exec at h
    cases hh : st.scc.handleEdge f g with
    | error e => rw [hh] at h; cases h
    | ok q =>
      obtain ⟨b, scc⟩ := q
      rw [hh] at h
      simp only [bind, Except.bind] at h
      have hv : ∀ x, scc.Vis x → st.scc.Vis x := fun x hx => handleEdge_vis_back hh hx
      cases b with
      | false =>
        simp only [Bool.false_eq_true, if_false] at h
        cases h
        exact fun x hx => .inl (hv x hx)
      | true =>
        simp only [if_true] at h
        cases hr : recurse g { st with scc := scc } with
        | error e => rw [hr] at h; cases h
        | ok q =>
          rw [hr] at h
          obtain ⟨R, st₂⟩ := q
          dsimp only at h
          cases ha : st₂.scc.afterRecurse f g with
          | error e => rw [ha] at h; cases h
          | ok s =>
            rw [ha] at h
            cases h
            exact fun x hx => (hrec _ _ _ hr x (afterRecurse_vis_back ha hx)).imp (hv x) id
  | visit g => intro st r h; exact ⟨rfl, hrec _ _ _ h⟩
  | union a b iha ihb =>
    intro st r h
    unfold exec at h
    cases ha : exec recurse f a st with
    | error e => rw [ha] at h; cases h
    | ok q =>
      obtain ⟨x, st₁⟩ := q
      rw [ha] at h
      simp only [bind, Except.bind] at h
      cases hb : exec recurse f b st₁ with
      | error e => rw [hb] at h; cases h
      | ok q =>
        rw [hb] at h
        cases h
        obtain ⟨h1, h2⟩ := iha _ _ ha
        obtain ⟨h3, h4⟩ := ihb _ _ hb
        exact ⟨by simp [Plan.panics, h1, h3], h2.trans h4⟩
  | minus a s iha =>
    intro st r h
    unfold exec at h
    cases ha : exec recurse f a st with
    | error e => rw [ha] at h; cases h
    | ok q =>
      rw [ha] at h
      cases h
      exact iha _ q ha

theorem findInFunc_calm : ∀ (fuel : Nat) (f : N) (st : Search N D) r, findInFunc plan fuel f st = .ok r →
    Calm plan st r.2 := by
  intro fuel
  induction fuel with
  | zero => intro f st r h; cases h
  | succ n ih =>
    intro f st r h
    unfold findInFunc Scc.visit at h
    cases hv : st.scc.vertices f with
    | some v => rw [hv] at h; cases h
    | none =>
      rw [hv] at h
      simp only [bind, Except.bind] at h
      generalize hs : (Scc.mk (st.scc.index + 1)
        (st.scc.setVertex f ⟨st.scc.index, st.scc.index, true⟩).vertices (f :: st.scc.stack)) = s1 at h
      have hback : ∀ x, s1.Vis x → st.scc.Vis x ∨ x = f := by
        intro x hx
        subst hs
        by_cases hxf : x = f
        · exact .inr hxf
        · simp only [Scc.Vis, Scc.setVertex, hxf, if_false] at hx; exact .inl hx
      cases he : exec (findInFunc plan n) f (plan f) { st with scc := s1 } with
      | error e => rw [he] at h; cases h
      | ok q =>
        rw [he] at h
        obtain ⟨R, st₂⟩ := q
        dsimp only at h
        obtain ⟨h1, h2⟩ := exec_calm ih f _ _ _ he
        cases hend : (st₂.setFound f R).scc.endVisit f with
        | error e => rw [hend] at h; cases h
        | ok q =>
          obtain ⟨c, scc⟩ := q
          rw [hend] at h
          have h3 : ∀ x, scc.Vis x → st.scc.Vis x ∨ (plan x).panics = false := by
            intro x hx
            rcases h2 x (endVisit_vis_back hend hx) with h | h
            · rcases hback x h with h | rfl
              · exact .inl h
              · exact .inr h1
            · exact .inr h
          cases c with
          | none => cases h; exact h3
          | some C =>
            cases h
            intro x hx
            have := (unify_scc ({ (st₂.setFound f R) with
              scc := scc, comps := (st₂.setFound f R).comps ++ [C] } : Search N D) C).1
            rw [this] at hx
            exact h3 x hx

theorem findAll_calm (fuel : Nat) : ∀ (order : List N) (st : Search N D) r, findAll plan fuel order st = .ok r →
    Calm plan st r.2 := by
  intro order
  induction order with
  | nil => intro st r h; cases h; exact fun _ h => .inl h
  | cons f fs ih =>
    intro st r h
    unfold findAll at h
    have hcached : ∀ r, findCached plan fuel f st = .ok r → Calm plan st r.2 := by
      intro r h
      unfold findCached at h
      split at h
      · cases h; exact fun _ h => .inl h
      · exact findInFunc_calm _ _ _ _ h
    cases hc : findCached plan fuel f st with
    | error e => rw [hc] at h; cases h
    | ok q =>
      rw [hc] at h
      obtain ⟨S, st₁⟩ := q
      simp only [bind, Except.bind] at h
      cases hr : findAll plan fuel fs st₁ with
      | error e => rw [hr] at h; cases h
      | ok q =>
        rw [hr] at h
        cases h
        exact (hcached _ hc).trans (ih _ q hr)

end Search

namespace Props.CallGraph
variable {N D : Type} [DecidableEq N]

/-- In a run that ends, no function that is reachable from an analysed one has a body that makes the analyzer
panic. -/
theorem no_panics {plan : N → Plan N D} {fuel : Nat} {order : List N}
    {results : List (N × CodeSet)} {st : Search N D}
    (h : Search.findAll plan fuel order Search.start = .ok (results, st)) {g : N}
    (hg : ∃ f ∈ order, Reach (Calls plan) f g) : (plan g).panics = false := by
  obtain ⟨h1, -⟩ := Search.findAll_looked fuel order _ _ Search.tidy_start h
  rcases Search.findAll_calm fuel order _ _ h g ((h1.vis_iff g).2 hg) with h | h
  · simp [Scc.Vis, Search.start, Scc.start] at h
  · exact h

end Props.CallGraph
end Serum
