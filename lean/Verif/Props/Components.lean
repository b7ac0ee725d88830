import Verif.CallGraphTop

/-!
# C14–C16: strongly connected components

`dfsAll succ fuel roots Scc.start` runs the search protocol documented in
`analysis/scc/strongly_connected_components.go` over the graph with successor lists `succ`, from every
root not yet visited; the result lists the components in the order `EndVisit` reported them.
-/

namespace Serum.Props.Components
variable {N : Type} [DecidableEq N]

/-- The edges of a graph. -/
abbrev Edge (succ : N → List N) (a b : N) : Prop := b ∈ succ a

theorem calls_eq (succ : N → List N) : Calls (edgePlan succ) = Edge succ := by
  funext a b; exact propext (calls_edgePlan succ a b)

private theorem run (succ : N → List N) (U roots : List N) (hU : ∀ a ∈ U, ∀ b ∈ succ a, b ∈ U)
    (hroots : ∀ r ∈ roots, r ∈ U) :
    ∃ comps s, dfsAll succ (U.length + 1) roots Scc.start = .ok (comps, s) ∧
      ∃ st : Search N Unit, Search.Inv (edgePlan succ) [] st ∧ st.comps = comps ∧
        ∀ x, st.scc.Vis x ↔ ∃ r ∈ roots, Reach (Edge succ) r x := by
  have h1 := dfsAll_fuelled hU (Nat.lt_succ_self _) roots Scc.start hroots
  have h2 := dfsAll_spec succ (U.length + 1) roots _ (Search.inv_start (plan := edgePlan succ))
  have h3 : (Search.start : Search N Unit).scc = Scc.start := rfl
  rw [h3] at h2
  revert h1 h2
  rw [Nat.succ_eq_add_one]
  cases dfsAll succ (U.length + 1) roots Scc.start with
  | error e => intro h1 h2; exact absurd (by rw [show e = _ from h2]) h1
  | ok p =>
    obtain ⟨cs, s⟩ := p
    rintro - ⟨st, h1, h2, h3, h4⟩
    refine ⟨cs, s, rfl, st, h1, by simpa [Search.start] using h3, fun x => ?_⟩
    rw [h2, h4, calls_eq]
    simp [Search.start, Scc.start, Scc.Vis]

/-- **C14** (and **C16**: the run ends normally).  Over every graph whose nodes reachable from the roots lie in a
finite list `U`, the search ends, every reported component is non-empty and is exactly the strongly
connected component of each of its nodes, and every node reachable from the roots occurs in exactly
one component, exactly once. -/
theorem components_exact (succ : N → List N) (U roots : List N)
    (hU : ∀ a ∈ U, ∀ b ∈ succ a, b ∈ U) (hroots : ∀ r ∈ roots, r ∈ U) :
    ∃ comps s, dfsAll succ (U.length + 1) roots Scc.start = .ok (comps, s) ∧
      (∀ C ∈ comps, C ≠ [] ∧ ∀ x ∈ C, ∀ y, y ∈ C ↔ Mutual (Edge succ) x y) ∧
      (∀ x, (∃ C ∈ comps, x ∈ C) ↔ ∃ r ∈ roots, Reach (Edge succ) r x) ∧
      comps.flatten.Nodup := by
  obtain ⟨cs, s, h1, st, h2, h3, h4⟩ := run succ U roots hU hroots
  refine ⟨cs, s, h1, ?_, ?_, ?_⟩
  · subst h3
    rw [← calls_eq]
    exact fun C hC => ⟨h2.comps_ne C hC, h2.comps_scc C hC⟩
  · intro x
    have := h2.comps_iff x
    rw [h3, h2.stack_nil] at this
    rw [← h4]
    simpa using this
  · rw [← h3]; exact h2.comps_nodup

/-- **C15**.  Everything reachable from a reported component is in it or in a component
reported before it. -/
theorem callees_first (succ : N → List N) (U roots : List N)
    (hU : ∀ a ∈ U, ∀ b ∈ succ a, b ∈ U) (hroots : ∀ r ∈ roots, r ∈ U) :
    ∃ comps s, dfsAll succ (U.length + 1) roots Scc.start = .ok (comps, s) ∧
      ∀ before C after, comps = before ++ C :: after →
        ∀ x ∈ C, ∀ y, Reach (Edge succ) x y → y ∈ C ∨ ∃ B ∈ before, y ∈ B := by
  obtain ⟨cs, s, h1, st, h2, h3, h4⟩ := run succ U roots hU hroots
  refine ⟨cs, s, h1, ?_⟩
  subst h3
  rw [← calls_eq]
  intro pre C post hc x hx y hr
  have := h2.comps_order pre C post hc x hx y hr
  simpa using this

/-- **C16**.  Whatever the graph (finite or not), the roots and the depth explored, no call of `Visit`,
`EndVisit`, `HandleEdge` or `AfterRecurse` made by the search panics: the only abnormal result of
the model is its own depth bound. -/
theorem never_panics (succ : N → List N) (fuel : Nat) (roots : List N) (e : Stop)
    (h : dfsAll succ fuel roots Scc.start = .error e) : e = .outOfFuel := by
  have h2 := dfsAll_spec succ fuel roots _ (Search.inv_start (plan := edgePlan succ))
  have h3 : (Search.start : Search N Unit).scc = Scc.start := rfl
  rw [h3, h] at h2
  exact h2

/-- Outside the protocol `Visit` does panic: visiting a node twice. -/
example : (do let s ← (Scc.start : Scc Nat).visit 0; s.visit 0) = .error .revisit := by
  rfl

/-- A graph with a cycle `0 → 1 → 2 → 0`, a tail `2 → 3` and an isolated root `4`
(hypotheses of the theorems above are met, and the components are as expected). -/
def sample : Nat → List Nat
  | 0 => [1] | 1 => [2, 1] | 2 => [0, 3] | _ => []

example : (∀ a ∈ [0, 1, 2, 3, 4], ∀ b ∈ sample a, b ∈ [0, 1, 2, 3, 4]) ∧
    (dfsAll sample 6 [0, 4] Scc.start).map Prod.fst = .ok [[3], [0, 1, 2], [4]] := by
  decide

end Serum.Props.Components
