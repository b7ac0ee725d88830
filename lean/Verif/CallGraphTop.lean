import Verif.CallGraphFuel

/-!
# The search from the top level

Consequences of the invariant once no function is being looked at any more, for the loop of
`runVerify`, and the correspondence between the plain depth first search over a graph and the search
for codes.
-/

set_option linter.unusedSectionVars false

namespace Serum
namespace Search
variable {N D : Type} [DecidableEq N] {plan : N → Plan N D}

theorem Inv.stack_nil {st : Search N D} (h : Inv plan [] st) : st.scc.stack = [] := by
  cases hs : st.scc.stack with
  | nil => rfl
  | cons a l =>
    obtain ⟨g, hg, _⟩ := h.toTop a (by simp [hs])
    simp at hg

/-- At the top level every visited function has exactly its codes. -/
theorem Inv.codes {st : Search N D} (h : Inv plan [] st) {x : N} (hx : st.scc.Vis x) :
    ∃ S, st.found x = some S ∧ ∀ c, c ∈ S ↔ CodesOf plan x c := by
  obtain ⟨S, hS, hall⟩ := h.complete x hx (by simp [h.stack_nil])
  exact ⟨S, hS, fun c => ⟨h.sound x S hS c, hall c⟩⟩

theorem Inv.closed {st : Search N D} (h : Inv plan [] st) {x y : N}
    (hr : Reach (Calls plan) x y) (hx : st.scc.Vis x) : st.scc.Vis y :=
  Reach.closed (S := st.scc.Vis) (fun a b ha hab => h.black a ha (by simp) b hab) hr hx

/-- A cached or fresh top-level search. -/
theorem findCached_spec (hlit : ∀ f, ∀ z ∈ (plan f).visits, ¬ Reach (Calls plan) z f)
    (fuel : Nat) (f : N) (st : Search N D) (h : Inv plan [] st) :
    Holds plan (findCached plan fuel f st) (fun r => Inv plan [] r.2 ∧
      (∀ c, c ∈ r.1 ↔ CodesOf plan f c) ∧
      (∀ x, r.2.scc.Vis x ↔ st.scc.Vis x ∨ Reach (Calls plan) f x)) := by
  unfold findCached
  cases hf : st.found f with
  | some S =>
    have hv := (h.found_vis f S hf).1
    obtain ⟨S', hS', hall⟩ := h.codes hv
    rw [hf] at hS'; cases hS'
    exact ⟨h, hall, fun x => ⟨.inl, fun hx => hx.elim id (fun hr => h.closed hr hv)⟩⟩
  | none =>
    have hnv : ¬ st.scc.Vis f := by
      intro hv
      obtain ⟨S, hS, _⟩ := h.codes hv
      simp [hf] at hS
    have h1 := findInFunc_spec hlit fuel [] f st h hnv (by simp)
    dsimp only
    cases hr : findInFunc plan fuel f st with
    | error e => rw [hr] at h1; exact h1
    | ok r =>
      rw [hr] at h1
      obtain ⟨R, st'⟩ := r
      have hp : PostF plan [] f st R st' := h1
      refine ⟨hp.inv, fun c => ⟨hp.sound c, hp.complete (by simp [hp.inv.stack_nil]) c⟩, fun x => ?_⟩
      exact ⟨hp.reach x, fun hx => hx.elim (hp.frame.vis x) (fun hr => hp.inv.closed hr hp.visf)⟩

theorem findAll_spec (hlit : ∀ f, ∀ z ∈ (plan f).visits, ¬ Reach (Calls plan) z f) (fuel : Nat) :
    ∀ (fs : List N) (st : Search N D), Inv plan [] st →
    Holds plan (findAll plan fuel fs st) (fun r => Inv plan [] r.2 ∧ r.1.map Prod.fst = fs ∧
      (∀ f S, (f, S) ∈ r.1 → ∀ c, c ∈ S ↔ CodesOf plan f c) ∧
      (∀ x, r.2.scc.Vis x ↔ st.scc.Vis x ∨ ∃ f ∈ fs, Reach (Calls plan) f x)) := by
  intro fs
  induction fs with
  | nil => intro st h; exact ⟨h, rfl, by simp, by simp⟩
  | cons f fs ih =>
    intro st h
    unfold findAll
    refine Holds.bind (findCached_spec hlit fuel f st h) ?_
    rintro ⟨S, st₁⟩ ⟨h1, h2, h3⟩
    refine Holds.bind (ih st₁ h1) ?_
    rintro ⟨rs, st₂⟩ ⟨h4, h5, h6, h7⟩
    refine ⟨h4, by simpa using h5, ?_, ?_⟩
    · intro g T hg
      rcases List.mem_cons.1 hg with e | hg
      · cases e; exact h2
      · exact h6 g T hg
    · intro x
      dsimp only at h3 h7 ⊢
      rw [h7, h3]
      simp [or_assoc]

theorem findCached_fuelled {U : List N} (hU : ∀ f ∈ U, ∀ z ∈ (plan f).targets, z ∈ U)
    {fuel : Nat} {f : N} {st : Search N D} (hf : f ∈ U) (hn : U.length < fuel) :
    Fuelled st (findCached plan fuel f st) := by
  unfold findCached
  cases st.found f with
  | some S => exact fun x hx => hx
  | none =>
    refine findInFunc_fuelled hU fuel f st hf ?_
    exact Nat.lt_of_le_of_lt List.countP_le_length hn

theorem findAll_fuelled {U : List N} (hU : ∀ f ∈ U, ∀ z ∈ (plan f).targets, z ∈ U)
    {fuel : Nat} (hn : U.length < fuel) :
    ∀ (fs : List N) (st : Search N D), (∀ f ∈ fs, f ∈ U) →
      findAll plan fuel fs st ≠ .error .outOfFuel := by
  intro fs
  induction fs with
  | nil => intro st _; simp [findAll]
  | cons f fs ih =>
    intro st hfs
    have h1 := findCached_fuelled hU (st := st) (hfs f (by simp)) hn
    unfold findAll
    cases hr : findCached plan fuel f st with
    | error e => rw [hr] at h1; simpa [bind, Except.bind, Search.Fuelled] using h1
    | ok r =>
      obtain ⟨S, st₁⟩ := r
      have h2 := ih st₁ (fun g hg => hfs g (by simp [hg]))
      simp only [bind, Except.bind]
      cases hr2 : findAll plan fuel fs st₁ with
      | error e => simpa [hr2] using h2
      | ok r => simp [pure, Except.pure]

/-- A search that cannot stop abnormally. -/
theorem holds_ok {α : Type} {r : Except Stop α} {P : α → Prop} (h : Holds plan r P)
    (hfuel : r ≠ .error .outOfFuel) (hv : ∀ f, (plan f).visits = [])
    (hp : ∀ f, (plan f).panics = false) : ∃ a, r = .ok a ∧ P a := by
  cases r with
  | ok a => exact ⟨a, rfl, h⟩
  | error e =>
    rcases h with rfl | ⟨_, f, hf⟩ | ⟨_, _, f, hf⟩
    · exact absurd rfl hfuel
    · exact absurd (hv f) hf
    · rw [hp f] at hf; cases hf

end Search

/-! ## Plain graphs -/

section Graph
variable {N : Type} [DecidableEq N]

/-- The plan that just calls all successors. -/
def edgePlan (succ : N → List N) (f : N) : Plan N Unit := Plan.unions ((succ f).map .call)

theorem unions_targets (ps : List (Plan N Unit)) :
    (Plan.unions ps).targets = ps.flatMap Plan.targets := by
  induction ps with
  | nil => rfl
  | cons p ps ih => simp [Plan.unions, Plan.targets, ih]

theorem calls_edgePlan (succ : N → List N) (f g : N) :
    Calls (edgePlan succ) f g ↔ g ∈ succ f := by
  unfold Calls edgePlan
  induction succ f with
  | nil => simp [Plan.unions, Plan.targets]
  | cons a l ih => simp [Plan.unions, Plan.targets, ih]

theorem edgePlan_visits (succ : N → List N) (f : N) : (edgePlan succ f).visits = [] := by
  unfold edgePlan
  induction succ f with
  | nil => simp [Plan.unions, Plan.visits]
  | cons a l ih => simp [Plan.unions, Plan.visits, ih]

theorem edgePlan_panics (succ : N → List N) (f : N) : (edgePlan succ f).panics = false := by
  unfold edgePlan
  induction succ f with
  | nil => simp [Plan.unions, Plan.panics]
  | cons a l ih => simp [Plan.unions, Plan.panics, ih]

/-- The plain search does to the SCC state what the search for codes does. -/
def Simulates (st : Search N Unit) (r : Except Stop (CodeSet × Search N Unit))
    (r' : Except Stop (List (List N) × Scc N)) : Prop :=
  match r, r' with
  | .ok a, .ok b => b.2 = a.2.scc ∧ a.2.comps = st.comps ++ b.1
  | .error e, .error e' => e = e'
  | _, _ => False

theorem dfs_simulates (succ : N → List N) : ∀ (fuel : Nat) (f : N) (st : Search N Unit),
    Simulates st (Search.findInFunc (edgePlan succ) fuel f st) (dfs succ fuel f st.scc) := by
  intro fuel
  induction fuel with
  | zero => intro f st; simp [Simulates, Search.findInFunc, dfs]
  | succ n ih =>
    intro f st
    have hedges : ∀ (ns : List N) (st : Search N Unit),
        Simulates st (Search.exec (Search.findInFunc (edgePlan succ) n) f
          (Plan.unions (ns.map .call)) st) (dfsEdges (dfs succ n) f ns st.scc) := by
      intro ns
      induction ns with
      | nil => intro st; simp [Simulates, Plan.unions, Search.exec, dfsEdges]
      | cons g ns ihn =>
        intro st
        simp only [List.map_cons, Plan.unions, Search.exec, dfsEdges]
        cases hh : st.scc.handleEdge f g with
        | error e => simp [bind, Except.bind, Simulates]
        | ok r =>
          obtain ⟨b, scc⟩ := r
          simp only [bind, Except.bind]
          cases b with
          | false =>
            simp only [pure, Except.pure, Bool.false_eq_true, if_false]
            have h2 := ihn { st with scc := scc }
            dsimp only at h2
            revert h2
            cases Search.exec (Search.findInFunc (edgePlan succ) n) f
                (Plan.unions (ns.map .call)) { st with scc := scc } <;>
              cases dfsEdges (dfs succ n) f ns scc <;> simp [Simulates]
          | true =>
            simp only [if_true]
            have h1 := ih g { st with scc := scc }
            dsimp only at h1
            revert h1
            cases Search.findInFunc (edgePlan succ) n g { st with scc := scc } with
            | error e =>
              cases dfs succ n g scc <;> simp [Simulates]
            | ok r =>
              cases hd : dfs succ n g scc with
              | error e => simp [Simulates]
              | ok r' =>
                obtain ⟨R, st₂⟩ := r
                obtain ⟨cs, s₂⟩ := r'
                intro h1
                obtain ⟨h1a, h1b⟩ := h1
                dsimp only at h1a h1b
                subst h1a
                dsimp only
                cases ha : st₂.scc.afterRecurse f g with
                | error e => simp [Simulates]
                | ok s₃ =>
                  simp only [pure, Except.pure]
                  have h2 := ihn { st₂ with scc := s₃ }
                  dsimp only at h2
                  revert h2
                  cases Search.exec (Search.findInFunc (edgePlan succ) n) f
                    (Plan.unions (ns.map .call)) { st₂ with scc := s₃ } <;>
                  cases dfsEdges (dfs succ n) f ns s₃ <;> simp [Simulates]
                  intro h3 h4
                  exact ⟨h3, by rw [h4, h1b]; simp⟩
    unfold Search.findInFunc dfs
    cases hv : st.scc.visit f with
    | error e => simp [bind, Except.bind, Simulates]
    | ok s1 =>
      simp only [bind, Except.bind]
      have h1 := hedges (succ f) { st with scc := s1 }
      dsimp only at h1
      have he : edgePlan succ f = Plan.unions ((succ f).map .call) := rfl
      rw [he]
      revert h1
      cases Search.exec (Search.findInFunc (edgePlan succ) n) f (Plan.unions ((succ f).map .call))
          { st with scc := s1 } with
      | error e => cases dfsEdges (dfs succ n) f (succ f) s1 <;> simp [Simulates]
      | ok r =>
        cases dfsEdges (dfs succ n) f (succ f) s1 with
        | error e => simp [Simulates]
        | ok r' =>
          obtain ⟨R, st₂⟩ := r
          obtain ⟨cs, s₂⟩ := r'
          rintro ⟨h1a, h1b⟩
          dsimp only at h1a h1b
          subst h1a
          dsimp only
          have hsf : (st₂.setFound f R).scc = st₂.scc := rfl
          have hsc : (st₂.setFound f R).comps = st₂.comps := rfl
          rw [hsf]
          cases hend : st₂.scc.endVisit f with
          | error e => simp [Simulates]
          | ok r =>
            obtain ⟨c, s₃⟩ := r
            cases c with
            | none =>
              simp [Simulates, pure, Except.pure, hsc, h1b]
            | some C =>
              have hu := Search.unify_scc ({ (st₂.setFound f R) with
                scc := s₃, comps := (st₂.setFound f R).comps ++ [C] } : Search N Unit) C
              refine ⟨hu.1.symm, ?_⟩
              rw [hu.2.2, hsc, h1b]
              simp

/-- The search over all roots. -/
theorem dfsAll_spec (succ : N → List N) (fuel : Nat) : ∀ (rs : List N) (st : Search N Unit),
    Search.Inv (edgePlan succ) [] st →
    match dfsAll succ fuel rs st.scc with
    | .error e => e = .outOfFuel
    | .ok (cs, s) => ∃ st' : Search N Unit, Search.Inv (edgePlan succ) [] st' ∧ st'.scc = s ∧
        st'.comps = st.comps ++ cs ∧
        ∀ x, s.Vis x ↔ st.scc.Vis x ∨ ∃ r ∈ rs, Reach (Calls (edgePlan succ)) r x := by
  have hlit : ∀ f, ∀ z ∈ (edgePlan succ f).visits, ¬ Reach (Calls (edgePlan succ)) z f := by
    intro f z hz; simp [edgePlan_visits] at hz
  intro rs
  induction rs with
  | nil => intro st h; exact ⟨st, h, rfl, by simp, by simp⟩
  | cons r rs ih =>
    intro st h
    unfold dfsAll
    cases hv : st.scc.vertices r with
    | some v =>
      dsimp only
      have hvis : st.scc.Vis r := by simp [Scc.Vis, hv]
      have h2 := ih st h
      revert h2
      cases dfsAll succ fuel rs st.scc with
      | error e => exact id
      | ok p =>
        rintro ⟨st', h1, h2, h3, h4⟩
        refine ⟨st', h1, h2, h3, fun x => ?_⟩
        rw [h4]
        constructor
        · rintro (hx | ⟨r', hr', hx⟩)
          · exact .inl hx
          · exact .inr ⟨r', by simp [hr'], hx⟩
        · rintro (hx | ⟨r', hr', hx⟩)
          · exact .inl hx
          · rcases List.mem_cons.1 hr' with rfl | hr'
            · exact .inl (h.closed hx hvis)
            · exact .inr ⟨r', hr', hx⟩
    | none =>
      dsimp only
      have hnv : ¬ st.scc.Vis r := by simp [Scc.Vis, hv]
      have h1 := Search.findInFunc_spec hlit fuel [] r st h hnv (by simp)
      have hsim := dfs_simulates succ fuel r st
      revert h1 hsim
      cases Search.findInFunc (edgePlan succ) fuel r st with
      | error e =>
        intro h1 hsim
        cases hd : dfs succ fuel r st.scc with
        | ok p => simp [hd, Simulates] at hsim
        | error e' =>
          simp only [hd, Simulates] at hsim
          subst hsim
          simp only [bind, Except.bind]
          rcases h1 with rfl | ⟨_, f, hf⟩ | ⟨_, _, f, hf⟩
          · rfl
          · exact absurd (edgePlan_visits succ f) hf
          · rw [edgePlan_panics] at hf; cases hf
      | ok p =>
        obtain ⟨R, st₁⟩ := p
        intro h1 hsim
        have hp : Search.PostF (edgePlan succ) [] r st R st₁ := h1
        cases hd : dfs succ fuel r st.scc with
        | error e => simp [hd, Simulates] at hsim
        | ok p =>
          obtain ⟨cs, s⟩ := p
          rw [hd] at hsim
          obtain ⟨hs1, hs2⟩ := hsim
          dsimp only at hs1 hs2
          subst hs1
          simp only [bind, Except.bind]
          have h2 := ih st₁ hp.inv
          revert h2
          cases dfsAll succ fuel rs st₁.scc with
          | error e => exact id
          | ok p =>
            obtain ⟨cs', s'⟩ := p
            rintro ⟨st', h3, h4, h5, h6⟩
            refine ⟨st', h3, h4, by rw [h5, hs2]; simp, fun x => ?_⟩
            rw [h6]
            constructor
            · rintro (hx | ⟨r', hr', hx⟩)
              · rcases hp.reach x hx with hx | hx
                · exact .inl hx
                · exact .inr ⟨r, by simp, hx⟩
              · exact .inr ⟨r', by simp [hr'], hx⟩
            · rintro (hx | ⟨r', hr', hx⟩)
              · exact .inl (hp.frame.vis x hx)
              · rcases List.mem_cons.1 hr' with rfl | hr'
                · exact .inl (hp.inv.closed hx hp.visf)
                · exact .inr ⟨r', hr', hx⟩

theorem dfsAll_fuelled {succ : N → List N} {U : List N} (hU : ∀ f ∈ U, ∀ g ∈ succ f, g ∈ U)
    {fuel : Nat} (hn : U.length < fuel) : ∀ (rs : List N) (s : Scc N), (∀ r ∈ rs, r ∈ U) →
    dfsAll succ fuel rs s ≠ .error .outOfFuel := by
  have hU' : ∀ f ∈ U, ∀ z ∈ (edgePlan succ f).targets, z ∈ U := fun f hf z hz =>
    hU f hf z ((calls_edgePlan succ f z).1 hz)
  intro rs
  induction rs with
  | nil => intro s _; simp [dfsAll]
  | cons r rs ih =>
    intro s hrs
    unfold dfsAll
    cases hv : s.vertices r with
    | some v => exact ih s (fun x hx => hrs x (by simp [hx]))
    | none =>
      dsimp only
      let st : Search N Unit := ⟨s, fun _ => none, [], []⟩
      have h1 := Search.findInFunc_fuelled hU' fuel r st (hrs r (by simp))
        (Nat.lt_of_le_of_lt List.countP_le_length hn)
      have hsim := dfs_simulates succ fuel r st
      revert h1 hsim
      show Search.Fuelled st _ → Simulates st _ (dfs succ fuel r s) → _
      cases Search.findInFunc (edgePlan succ) fuel r st with
      | error e =>
        intro h1 hsim
        cases hd : dfs succ fuel r s with
        | ok p => simp [hd, Simulates] at hsim
        | error e' =>
          simp only [hd, Simulates] at hsim
          subst hsim
          simpa [bind, Except.bind, Search.Fuelled] using h1
      | ok p =>
        intro _ hsim
        cases hd : dfs succ fuel r s with
        | error e => simp [hd, Simulates] at hsim
        | ok p =>
          obtain ⟨cs, s'⟩ := p
          simp only [bind, Except.bind]
          have h2 := ih s' (fun x hx => hrs x (by simp [hx]))
          cases hr2 : dfsAll succ fuel rs s' with
          | error e => simpa [hr2] using h2
          | ok r => simp [pure, Except.pure]

end Graph
end Serum
