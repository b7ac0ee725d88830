import Verif.CallGraphPanics

/-! # When the search over functions succeeds

The panics of the search are characterised exactly: see `Props.CallGraph.succeeds_iff`.  Nothing is assumed about literals calling
back. -/

set_option linter.unusedSectionVars false

namespace Serum

/-- The functions which are called, in order (without the literals visited directly). -/
def Plan.calls {N D : Type} : Plan N D → List N
  | .codes _ | .report _ | .panic _ | .visit _ => []
  | .call g => [g]
  | .union a b => a.calls ++ b.calls
  | .minus a _ => a.calls

theorem Plan.mem_targets_iff {N D : Type} {z : N} : ∀ p : Plan N D, z ∈ p.targets ↔ z ∈ p.calls ∨ z ∈ p.visits
  | .codes _ => by simp [targets, calls, visits]
  | .report _ => by simp [targets, calls, visits]
  | .panic _ => by simp [targets, calls, visits]
  | .call _ => by simp [targets, calls, visits]
  | .visit _ => by simp [targets, calls, visits]
  | .union a b => by
    simp only [targets, calls, visits, List.mem_append, mem_targets_iff a, mem_targets_iff b]
    constructor
    · rintro ((h | h) | h | h) <;> simp [h]
    · rintro ((h | h) | h | h) <;> simp [h]
  | .minus a _ => mem_targets_iff a

namespace Search
variable {N D : Type} [DecidableEq N] {plan : N → Plan N D}

/-- The conditions, for a set of functions which contains those they call. -/
structure Safe (plan : N → Plan N D) (R : N → Prop) : Prop where
  closed : ∀ x, R x → ∀ y ∈ (plan x).targets, R y
  calm : ∀ x, R x → (plan x).panics = false
  nodup : ∀ x, R x → (plan x).visits.Nodup
  apart : ∀ x y z, R x → R y → z ∈ (plan x).visits → z ∈ (plan y).visits → x = y
  uncalled : ∀ x y z, R x → R y → z ∈ (plan x).visits → z ∉ (plan y).calls

/-- A literal is visited only after the function visiting it. -/
def Good (plan : N → Plan N D) (R : N → Prop) (st : Search N D) : Prop :=
  ∀ f z, R f → z ∈ (plan f).visits → st.scc.Vis z → st.scc.Vis f

/-- What a part of the search does. -/
structure Grown (plan : N → Plan N D) (R : N → Prop) (rs : List N) (st st' : Search N D) : Prop where
  stack : ∃ ext, st'.scc.stack = ext ++ st.scc.stack
  grow : ∀ x, st.scc.Vis x → st'.scc.Vis x
  new : ∀ x, st'.scc.Vis x → st.scc.Vis x ∨ (R x ∧ (st'.found x).isSome ∧
    (x ∈ rs ∨ ∃ h, R h ∧ st'.scc.Vis h ∧ ¬ st.scc.Vis h ∧ x ∈ (plan h).targets))
  found : ∀ x, (st.found x).isSome → (st'.found x).isSome

/-- The result satisfies `P`, or the depth was exceeded. -/
def OkOr {α : Type} (r : Except Stop α) (P : α → Prop) : Prop :=
  match r with
  | .ok a => P a
  | .error e => e = .outOfFuel

variable {R : N → Prop}

theorem Grown.refl (rs : List N) (st : Search N D) : Grown plan R rs st st :=
  ⟨⟨[], rfl⟩, fun _ h => h, fun _ h => .inl h, fun _ h => h⟩

theorem Grown.trans {rs rs' : List N} {a b c : Search N D} (h : Grown plan R rs a b) (h' : Grown plan R rs' b c) :
    Grown plan R (rs ++ rs') a c where
  stack := by
    obtain ⟨e, h1⟩ := h.stack
    obtain ⟨e', h2⟩ := h'.stack
    exact ⟨e' ++ e, by rw [h2, h1, List.append_assoc]⟩
  grow := fun x hx => h'.grow x (h.grow x hx)
  new := fun x hx => by
    rcases h'.new x hx with hb | ⟨h1, h2, h3⟩
    · rcases h.new x hb with ha | ⟨h1, h2, h3⟩
      · exact .inl ha
      · refine .inr ⟨h1, h'.found x h2, ?_⟩
        rcases h3 with h3 | ⟨y, k1, k2, k3, k4⟩
        · exact .inl (by simp [h3])
        · exact .inr ⟨y, k1, h'.grow y k2, k3, k4⟩
    · refine .inr ⟨h1, h2, ?_⟩
      rcases h3 with h3 | ⟨y, k1, k2, k3, k4⟩
      · exact .inl (by simp [h3])
      · exact .inr ⟨y, k1, k2, fun k => k3 (h.grow y k), k4⟩
  found := fun x hx => h'.found x (h.found x hx)

theorem Grown.good (hs : Safe plan R) {rs : List N} {st st' : Search N D} (h : Grown plan R rs st st') (hg : Good plan R st)
    (hr : ∀ x ∈ rs, ∀ f, R f → x ∈ (plan f).visits → st'.scc.Vis f) : Good plan R st' := by
  intro f z hf hz hv
  rcases h.new z hv with hv | ⟨-, -, h3 | ⟨y, k1, k2, k3, k4⟩⟩
  · exact h.grow f (hg f z hf hz hv)
  · exact hr z h3 f hf hz
  · rcases (Plan.mem_targets_iff _).1 k4 with k4 | k4
    · exact absurd k4 (hs.uncalled f y z hf k1 hz)
    · rw [hs.apart f y z hf k1 hz k4]; exact k2

/-- Only the bookkeeping of visited functions changes. -/
theorem Grown.same {rs : List N} {st st' st'' : Search N D} (h : Grown plan R rs st st') (hv : ∀ x, st''.scc.Vis x ↔ st'.scc.Vis x)
    (hs : ∃ ext, st''.scc.stack = ext ++ st.scc.stack) (hf : ∀ x, (st'.found x).isSome → (st''.found x).isSome) : Grown plan R rs st st'' where
  stack := hs
  grow := fun x hx => (hv x).2 (h.grow x hx)
  new := fun x hx => by
    rcases h.new x ((hv x).1 hx) with h | ⟨h1, h2, h3⟩
    · exact .inl h
    · refine .inr ⟨h1, hf x h2, h3.imp id ?_⟩
      rintro ⟨y, k1, k2, k3, k4⟩
      exact ⟨y, k1, (hv y).2 k2, k3, k4⟩
  found := fun x hx => hf x (h.found x hx)

theorem Good.same {st st' : Search N D} (h : Good plan R st) (hv : ∀ x, st'.scc.Vis x ↔ st.scc.Vis x) : Good plan R st' :=
  fun f z hf hz hz' => (hv f).2 (h f z hf hz ((hv z).1 hz'))

theorem popTo_ext {g : N} : ∀ (ext base : List N), ∃ p e, Scc.popTo g (ext ++ g :: base) = some (p, e ++ base)
  | [], base => ⟨[g], [], by simp [Scc.popTo]⟩
  | a :: ext, base => by
    rw [List.cons_append]
    unfold Scc.popTo
    by_cases h : a = g
    · exact ⟨[a], ext ++ [g], by simp [h]⟩
    · obtain ⟨p, e, he⟩ := popTo_ext (g := g) ext base
      exact ⟨a :: p, e, by simp [h, he]⟩

theorem exec_safe (hs : Safe plan R) {recurse : N → Search N D → Except Stop (CodeSet × Search N D)}
    (hrec : ∀ g st, R g → ¬ st.scc.Vis g → Good plan R st → (∀ f, R f → g ∈ (plan f).visits → st.scc.Vis f) →
      OkOr (recurse g st) fun a => Grown plan R [g] st a.2 ∧ a.2.scc.Vis g ∧ Good plan R a.2)
    {cur : N} (hcur : R cur) : ∀ (p : Plan N D) (st : Search N D), st.scc.Vis cur → (∀ z ∈ p.calls, z ∈ (plan cur).calls) →
      (∀ z ∈ p.visits, z ∈ (plan cur).visits) → p.panics = false → p.visits.Nodup → (∀ z ∈ p.visits, ¬ st.scc.Vis z) → Good plan R st →
      OkOr (exec recurse cur p st) fun a => Grown plan R p.targets st a.2 ∧ Good plan R a.2
  | .codes s, st, _, _, _, _, _, _, hg => ⟨.refl _ _, hg⟩
  | .report d, st, _, _, _, _, _, _, hg =>
    ⟨⟨⟨[], rfl⟩, fun _ h => h, fun _ h => .inl h, fun _ h => h⟩, fun f z hf hz hv => hg f z hf hz hv⟩
  | .panic l, st, _, _, _, hp, _, _, _ => by cases hp
  | .visit g, st, hv, hc, hvis, hp, hn, hnv, hg => by
    have hgc := hvis g (by simp [Plan.visits])
    have h1 := hrec g st (hs.closed cur hcur g ((Plan.mem_targets_iff _).2 (.inr hgc))) (hnv g (by simp [Plan.visits])) hg
      (fun f hf hz => by rw [hs.apart f cur g hf hcur hz hgc]; exact hv)
    unfold exec
    unfold OkOr at h1 ⊢
    split at h1
    · exact ⟨h1.1, h1.2.2⟩
    · exact h1
  | .call g, st, hv, hc, hvis, hp, hn, hnv, hg => by
    have hgc := hc g (by simp [Plan.calls])
    have hRg : R g := hs.closed cur hcur g ((Plan.mem_targets_iff _).2 (.inl hgc))
    obtain ⟨w, hw⟩ := Option.isSome_iff_exists.1 (Option.isSome_iff_ne_none.2 hv)
    unfold exec
    have hh : ∃ q, st.scc.handleEdge cur g = .ok q ∧ (q.1 = true → ¬ st.scc.Vis g) := by
      unfold Scc.handleEdge
      cases hvg : st.scc.vertices g with
      | none => exact ⟨_, rfl, fun _ => by simp [Scc.Vis, hvg]⟩
      | some t =>
        simp only [hw]
        by_cases ht : t.isOnStack = true
        · rw [if_pos ht]; exact ⟨_, rfl, by simp⟩
        · rw [if_neg ht]; exact ⟨_, rfl, by simp⟩
    obtain ⟨⟨b, scc⟩, hh, hb⟩ := hh
    obtain ⟨k1, k2, -⟩ := handleEdge_same hh
    simp only [hh, bind, Except.bind]
    cases b with
    | false =>
      exact ⟨Grown.same (.refl _ st) k1 ⟨[], k2⟩ fun _ h => h, hg.same k1⟩
    | true =>
      simp only [if_true]
      have hg1 : Good plan R { st with scc := scc } := hg.same k1
      have h1 := hrec g { st with scc := scc } hRg (fun h => hb rfl ((k1 g).1 h)) hg1
        (fun f hf hz => absurd hgc (hs.uncalled f cur g hf hcur hz))
      unfold OkOr at h1
      cases hr : recurse g { st with scc := scc } with
      | error e => rw [hr] at h1; exact h1
      | ok q =>
        rw [hr] at h1
        obtain ⟨C, st₂⟩ := q
        obtain ⟨h1, h2, h3⟩ := h1
        have hv2 : st₂.scc.Vis cur := h1.grow cur ((k1 cur).2 hv)
        obtain ⟨w₁, hw₁⟩ := Option.isSome_iff_exists.1 (Option.isSome_iff_ne_none.2 hv2)
        obtain ⟨w₂, hw₂⟩ := Option.isSome_iff_exists.1 (Option.isSome_iff_ne_none.2 h2)
        have ha : ∃ s, st₂.scc.afterRecurse cur g = .ok s := by
          unfold Scc.afterRecurse
          simp only at h2 hw₂
          rw [hw₁, hw₂]; exact ⟨_, rfl⟩
        obtain ⟨s, ha⟩ := ha
        obtain ⟨j1, j2⟩ := afterRecurse_same ha
        dsimp only
        rw [ha]
        have h0 : Grown plan R [] st { st with scc := scc } := Grown.same (.refl _ st) k1 ⟨[], k2⟩ fun _ h => h
        have ht : Grown plan R [g] st st₂ := h0.trans h1
        refine ⟨Grown.same (st' := st₂) ht j1 ?_ fun _ h => h, Good.same (st := st₂) h3 j1⟩
        obtain ⟨e, he⟩ := ht.stack
        exact ⟨e, by dsimp only; rw [j2, he]⟩
  | .union a b, st, hv, hc, hvis, hp, hn, hnv, hg => by
    have hp' : a.panics = false ∧ b.panics = false := by simpa [Plan.panics] using hp
    obtain ⟨hna, hnb, hdis⟩ := List.nodup_append.1 (show (a.visits ++ b.visits).Nodup from hn)
    have h1 := exec_safe hs hrec hcur a st hv (fun z hz => hc z (by simp [Plan.calls, hz]))
      (fun z hz => hvis z (by simp [Plan.visits, hz])) hp'.1 hna (fun z hz => hnv z (by simp [Plan.visits, hz])) hg
    unfold exec
    unfold OkOr at h1
    cases ha : exec recurse cur a st with
    | error e => rw [ha] at h1; exact h1
    | ok q =>
      rw [ha] at h1
      obtain ⟨x, st₁⟩ := q
      obtain ⟨h1, hg1⟩ := h1
      have hnv1 : ∀ z ∈ b.visits, ¬ st₁.scc.Vis z := by
        intro z hz hvz
        have hzc := hvis z (by simp [Plan.visits, hz])
        rcases h1.new z hvz with k | ⟨-, -, k | ⟨y, k1, k2, k3, k4⟩⟩
        · exact hnv z (by simp [Plan.visits, hz]) k
        · rcases (Plan.mem_targets_iff _).1 k with k | k
          · exact hs.uncalled cur cur z hcur hcur hzc (hc z (by simp [Plan.calls, k]))
          · exact hdis z k z hz rfl
        · rcases (Plan.mem_targets_iff _).1 k4 with k4 | k4
          · exact hs.uncalled cur y z hcur k1 hzc k4
          · exact k3 (hs.apart y cur z k1 hcur k4 hzc ▸ hv)
      have h2 := exec_safe hs hrec hcur b st₁ (h1.grow cur hv) (fun z hz => hc z (by simp [Plan.calls, hz]))
        (fun z hz => hvis z (by simp [Plan.visits, hz])) hp'.2 hnb hnv1 hg1
      simp only [bind, Except.bind]
      unfold OkOr at h2
      cases hb : exec recurse cur b st₁ with
      | error e => rw [hb] at h2; exact h2
      | ok q =>
        rw [hb] at h2
        exact ⟨h1.trans h2.1, h2.2⟩
  | .minus a s, st, hv, hc, hvis, hp, hn, hnv, hg => by
    have h1 := exec_safe hs hrec hcur a st hv hc hvis hp hn hnv hg
    unfold exec
    unfold OkOr at h1
    cases ha : exec recurse cur a st with
    | error e => rw [ha] at h1; exact h1
    | ok q => rw [ha] at h1; exact h1

theorem unify_isSome {st : Search N D} {C : List N} {x : N} (h : (st.found x).isSome) : ((st.unify C).2.found x).isSome := by
  rw [unify_found]
  split
  · rfl
  · exact h

theorem findInFunc_safe (hs : Safe plan R) : ∀ (fuel : Nat) (g : N) (st : Search N D), R g → ¬ st.scc.Vis g → Good plan R st →
    (∀ f, R f → g ∈ (plan f).visits → st.scc.Vis f) →
    OkOr (findInFunc plan fuel g st) fun a => Grown plan R [g] st a.2 ∧ a.2.scc.Vis g ∧ Good plan R a.2
  | 0, g, st, _, _, _, _ => rfl
  | n + 1, g, st, hR, hv, hg, hlit => by
    unfold findInFunc Scc.visit
    have hv0 : st.scc.vertices g = none := by
      cases h : st.scc.vertices g with
      | none => rfl
      | some w => exact absurd (by simp [Scc.Vis, h]) hv
    rw [hv0]
    simp only [bind, Except.bind]
    generalize hs1 : (Scc.mk (st.scc.index + 1)
      (st.scc.setVertex g ⟨st.scc.index, st.scc.index, true⟩).vertices (g :: st.scc.stack)) = s1
    have hvis : ∀ x, s1.Vis x ↔ st.scc.Vis x ∨ x = g := by
      intro x
      subst hs1
      by_cases hx : x = g <;> simp [Scc.Vis, Scc.setVertex, hx]
    have hstk : s1.stack = g :: st.scc.stack := by subst hs1; rfl
    have hg1 : Good plan R { st with scc := s1 } := by
      intro f z hf hz hvz
      rcases (hvis z).1 hvz with k | rfl
      · exact (hvis f).2 (.inl (hg f z hf hz k))
      · exact (hvis f).2 (.inl (hlit f hf hz))
    have hnv : ∀ z ∈ (plan g).visits, ¬ s1.Vis z := by
      intro z hz hvz
      rcases (hvis z).1 hvz with k | rfl
      · exact hv (hg g z hR hz k)
      · exact hv (hlit z hR hz)
    have h1 := exec_safe hs (findInFunc_safe hs n) hR (plan g) { st with scc := s1 } ((hvis g).2 (.inr rfl)) (fun _ h => h)
      (fun _ h => h) (hs.calm g hR) (hs.nodup g hR) hnv hg1
    unfold OkOr at h1
    cases he : exec (findInFunc plan n) g (plan g) { st with scc := s1 } with
    | error e => rw [he] at h1; exact h1
    | ok q =>
      rw [he] at h1
      obtain ⟨C, st₂⟩ := q
      obtain ⟨h1, hg2⟩ := h1
      dsimp only
      have hvg : st₂.scc.Vis g := h1.grow g ((hvis g).2 (.inr rfl))
      obtain ⟨w, hw⟩ := Option.isSome_iff_exists.1 (Option.isSome_iff_ne_none.2 hvg)
      obtain ⟨ext, hext⟩ := h1.stack
      simp only [hstk] at hext
      obtain ⟨p, e, hpop⟩ := popTo_ext (g := g) ext st.scc.stack
      have hend : ∃ c scc, (st₂.setFound g C).scc.endVisit g = .ok (c, scc) ∧ ∃ e, scc.stack = e ++ st.scc.stack := by
        unfold Scc.endVisit
        have e1 : (st₂.setFound g C).scc = st₂.scc := rfl
        rw [e1, hw]
        dsimp only
        by_cases hi : w.index ≠ w.lowindex
        · rw [if_pos hi]
          exact ⟨_, _, rfl, ext ++ [g], by rw [hext]; simp⟩
        · rw [if_neg hi, hext, hpop]
          exact ⟨_, _, rfl, e, rfl⟩
      obtain ⟨c, scc, hend, e', hst⟩ := hend
      obtain ⟨j1, -, -⟩ := endVisit_same hend
      have j1 : ∀ x, scc.Vis x ↔ st₂.scc.Vis x := j1
      -- all together, before components are unified
      have hfound : ∀ x, (st₂.found x).isSome → ((st₂.setFound g C).found x).isSome := by
        intro x hx
        rw [setFound_found]; split
        · rfl
        · exact hx
      have hfg : ((st₂.setFound g C).found g).isSome := by rw [setFound_found]; simp
      have key : Grown plan R [g] st { (st₂.setFound g C) with scc := scc } := by
        refine ⟨⟨e', hst⟩, fun x hx => (j1 x).2 (h1.grow x ((hvis x).2 (.inl hx))), fun x hx => ?_, fun x hx => hfound x (h1.found x hx)⟩
        rcases h1.new x ((j1 x).1 hx) with k | ⟨k1, k2, k3⟩
        · rcases (hvis x).1 k with k | rfl
          · exact .inl k
          · exact .inr ⟨hR, hfg, .inl (by simp)⟩
        · refine .inr ⟨k1, hfound x k2, ?_⟩
          rcases k3 with k3 | ⟨y, l1, l2, l3, l4⟩
          · exact .inr ⟨g, hR, (j1 g).2 hvg, hv, k3⟩
          · exact .inr ⟨y, l1, (j1 y).2 l2, fun k => l3 ((hvis y).2 (.inl k)), l4⟩
      have hg3 : Good plan R { (st₂.setFound g C) with scc := scc } := hg2.same j1
      rw [hend]
      dsimp only
      cases c with
      | none => exact ⟨key, (j1 g).2 hvg, hg3⟩
      | some comp =>
        have hu := (unify_scc ({ (st₂.setFound g C) with scc := scc, comps := (st₂.setFound g C).comps ++ [comp] } : Search N D) comp).1
        refine ⟨key.same (fun x => ?_) ?_ fun x hx => unify_isSome hx, ?_, hg3.same fun x => ?_⟩
        · rw [hu]
        · rw [hu]; exact ⟨e', hst⟩
        · show (unify _ comp).2.scc.Vis g
          rw [hu]; exact (j1 g).2 hvg
        · rw [hu]

/-- The loop over the functions. -/
theorem findAll_safe (hs : Safe plan R) (fuel : Nat) : ∀ (order : List N) (st : Search N D), (∀ f ∈ order, R f) →
    (∀ f ∈ order, ∀ g, R g → f ∉ (plan g).visits) → (∀ x, st.scc.Vis x → (st.found x).isSome) → Good plan R st →
    OkOr (findAll plan fuel order st) fun a => Grown plan R order st a.2 ∧ (∀ x, a.2.scc.Vis x → (a.2.found x).isSome) ∧ Good plan R a.2
  | [], st, _, _, hf, hg => ⟨.refl _ _, hf, hg⟩
  | f :: fs, st, hR, hlit, hf, hg => by
    have hc : OkOr (findCached plan fuel f st) fun a => Grown plan R [f] st a.2 ∧ (∀ x, a.2.scc.Vis x → (a.2.found x).isSome) ∧
        Good plan R a.2 := by
      unfold findCached
      cases hff : st.found f with
      | some S => exact ⟨.refl _ _, hf, hg⟩
      | none =>
        dsimp only
        have h1 := findInFunc_safe hs fuel f st (hR f (by simp)) (fun h => by have := hf f h; rw [hff] at this; cases this) hg
          (fun g hg' hz => absurd hz (hlit f (by simp) g hg'))
        unfold OkOr at h1 ⊢
        split at h1
        · rename_i a ha
          refine ⟨h1.1, fun x hx => ?_, h1.2.2⟩
          rcases h1.1.new x hx with k | ⟨-, k, -⟩
          · exact h1.1.found x (hf x k)
          · exact k
        · exact h1
    unfold findAll
    unfold OkOr at hc
    cases h1 : findCached plan fuel f st with
    | error e => rw [h1] at hc; exact hc
    | ok q =>
      rw [h1] at hc
      obtain ⟨S, st₁⟩ := q
      obtain ⟨k1, k2, k3⟩ := hc
      have h2 := findAll_safe hs fuel fs st₁ (fun g hg => hR g (by simp [hg])) (fun g hg => hlit g (by simp [hg])) k2 k3
      simp only [bind, Except.bind]
      unfold OkOr at h2
      cases hr : findAll plan fuel fs st₁ with
      | error e => rw [hr] at h2; exact h2
      | ok q =>
        rw [hr] at h2
        exact ⟨k1.trans h2.1, h2.2⟩

/-! ## Conversely -/

/-- What a part of the search that succeeded says about the literals visited. -/
structure Fresh (plan : N → Plan N D) (own : List N) (st st' : Search N D) : Prop where
  grow : ∀ x, st.scc.Vis x → st'.scc.Vis x
  own_new : ∀ z ∈ own, ¬ st.scc.Vis z ∧ st'.scc.Vis z
  own_nodup : own.Nodup
  nodup : ∀ h, st'.scc.Vis h → ¬ st.scc.Vis h → (plan h).visits.Nodup
  new : ∀ h, st'.scc.Vis h → ¬ st.scc.Vis h → ∀ z ∈ (plan h).visits, ¬ st.scc.Vis z ∧ st'.scc.Vis z
  apart : ∀ h h' z, st'.scc.Vis h → ¬ st.scc.Vis h → st'.scc.Vis h' → ¬ st.scc.Vis h' → z ∈ (plan h).visits →
    z ∈ (plan h').visits → h = h'
  apart_own : ∀ h z, st'.scc.Vis h → ¬ st.scc.Vis h → z ∈ (plan h).visits → z ∉ own

theorem Fresh.of_same {st st' : Search N D} (hv : ∀ x, st'.scc.Vis x ↔ st.scc.Vis x) : Fresh plan [] st st' :=
  ⟨fun x h => (hv x).2 h, by simp, by simp, fun h h1 h2 => absurd ((hv h).1 h1) h2, fun h h1 h2 => absurd ((hv h).1 h1) h2,
    fun h _ _ h1 h2 => absurd ((hv h).1 h1) h2, fun h _ h1 h2 => absurd ((hv h).1 h1) h2⟩

theorem Fresh.trans {own own' : List N} {a b c : Search N D} (h : Fresh plan own a b) (h' : Fresh plan own' b c) :
    Fresh plan (own ++ own') a c where
  grow := fun x hx => h'.grow x (h.grow x hx)
  own_new := fun z hz => by
    rcases List.mem_append.1 hz with hz | hz
    · exact ⟨(h.own_new z hz).1, h'.grow z (h.own_new z hz).2⟩
    · exact ⟨fun k => (h'.own_new z hz).1 (h.grow z k), (h'.own_new z hz).2⟩
  own_nodup := List.nodup_append.2 ⟨h.own_nodup, h'.own_nodup, fun x hx y hy e =>
    (h'.own_new y hy).1 (e ▸ (h.own_new x hx).2)⟩
  nodup := fun x hx hn => by
    by_cases hb : b.scc.Vis x
    · exact h.nodup x hb hn
    · exact h'.nodup x hx hb
  new := fun x hx hn z hz => by
    by_cases hb : b.scc.Vis x
    · exact ⟨(h.new x hb hn z hz).1, h'.grow z (h.new x hb hn z hz).2⟩
    · exact ⟨fun k => (h'.new x hx hb z hz).1 (h.grow z k), (h'.new x hx hb z hz).2⟩
  apart := fun x y z hx hnx hy hny hzx hzy => by
    by_cases hb : b.scc.Vis x
    · by_cases hb' : b.scc.Vis y
      · exact h.apart x y z hb hnx hb' hny hzx hzy
      · exact absurd (h.new x hb hnx z hzx).2 (h'.new y hy hb' z hzy).1
    · by_cases hb' : b.scc.Vis y
      · exact absurd (h.new y hb' hny z hzy).2 (h'.new x hx hb z hzx).1
      · exact h'.apart x y z hx hb hy hb' hzx hzy
  apart_own := fun x z hx hn hz ho => by
    by_cases hb : b.scc.Vis x
    · rcases List.mem_append.1 ho with ho | ho
      · exact h.apart_own x z hb hn hz ho
      · exact (h'.own_new z ho).1 (h.new x hb hn z hz).2
    · rcases List.mem_append.1 ho with ho | ho
      · exact (h'.new x hx hb z hz).1 (h.own_new z ho).2
      · exact h'.apart_own x z hx hb hz ho

theorem exec_fresh {recurse : N → Search N D → Except Stop (CodeSet × Search N D)}
    (hrec : ∀ g st r, recurse g st = .ok r → Fresh plan [] st r.2 ∧ ¬ st.scc.Vis g ∧ r.2.scc.Vis g ∧
      (∀ h, r.2.scc.Vis h → ¬ st.scc.Vis h → g ∉ (plan h).visits)) (f : N) :
    ∀ (p : Plan N D) (st : Search N D) r, exec recurse f p st = .ok r → Fresh plan p.visits st r.2
  | .codes s, st, r, h => by cases h; exact .of_same fun _ => Iff.rfl
  | .report s, st, r, h => by cases h; exact .of_same fun _ => Iff.rfl
  | .panic s, st, r, h => by cases h
  | .visit g, st, r, h => by
    obtain ⟨h1, h2, h3, h4⟩ := hrec g st r h
    exact ⟨h1.grow, by simp only [Plan.visits, List.mem_singleton, forall_eq]; exact ⟨h2, h3⟩, by simp [Plan.visits], h1.nodup, h1.new, h1.apart,
      fun x z hx hn hz ho => by
        simp only [Plan.visits, List.mem_singleton] at ho
        exact h4 x hx hn (ho ▸ hz)⟩
  | .call g, st, r, h => by
    unfold exec at h
    cases hh : st.scc.handleEdge f g with
    | error e => rw [hh] at h; cases h
    | ok q =>
      obtain ⟨b, scc⟩ := q
      rw [hh] at h
      simp only [bind, Except.bind] at h
      have k := (handleEdge_same hh).1
      have h0 : Fresh plan [] st { st with scc := scc } := .of_same k
      cases b with
      | false => simp only [Bool.false_eq_true, if_false] at h; cases h; exact h0
      | true =>
        simp only [if_true] at h
        cases hr : recurse g { st with scc := scc } with
        | error e => rw [hr] at h; cases h
        | ok q =>
          rw [hr] at h
          obtain ⟨R, st₂⟩ := q
          dsimp only at h
          cases ha : st₂.scc.afterRecurse f g with
          | error e => rw [ha] at h; cases h
          | ok s =>
            rw [ha] at h
            cases h
            have h2 : Fresh plan [] st₂ { st₂ with scc := s } := .of_same (afterRecurse_same ha).1
            exact (h0.trans (hrec _ _ _ hr).1).trans h2
  | .union a b, st, r, h => by
    unfold exec at h
    cases ha : exec recurse f a st with
    | error e => rw [ha] at h; cases h
    | ok q =>
      obtain ⟨x, st₁⟩ := q
      rw [ha] at h
      simp only [bind, Except.bind] at h
      cases hb : exec recurse f b st₁ with
      | error e => rw [hb] at h; cases h
      | ok q =>
        rw [hb] at h
        cases h
        exact (exec_fresh hrec f a st (x, st₁) ha).trans (exec_fresh hrec f b st₁ q hb)
  | .minus a s, st, r, h => by
    unfold exec at h
    cases ha : exec recurse f a st with
    | error e => rw [ha] at h; cases h
    | ok q =>
      rw [ha] at h
      cases h
      exact exec_fresh hrec f a _ q ha

theorem findInFunc_fresh : ∀ (fuel : Nat) (g : N) (st : Search N D) r, findInFunc plan fuel g st = .ok r →
    Fresh plan [] st r.2 ∧ ¬ st.scc.Vis g ∧ r.2.scc.Vis g ∧ (∀ h, r.2.scc.Vis h → ¬ st.scc.Vis h → g ∉ (plan h).visits)
  | 0, g, st, r, h => by cases h
  | n + 1, g, st, r, h => by
    unfold findInFunc Scc.visit at h
    cases hv : st.scc.vertices g with
    | some v => rw [hv] at h; cases h
    | none =>
      rw [hv] at h
      simp only [bind, Except.bind] at h
      have hnv : ¬ st.scc.Vis g := by simp [Scc.Vis, hv]
      generalize hs : (Scc.mk (st.scc.index + 1)
        (st.scc.setVertex g ⟨st.scc.index, st.scc.index, true⟩).vertices (g :: st.scc.stack)) = s1 at h
      have hvis : ∀ x, s1.Vis x ↔ st.scc.Vis x ∨ x = g := by
        intro x
        subst hs
        by_cases hx : x = g <;> simp [Scc.Vis, Scc.setVertex, hx]
      cases he : exec (findInFunc plan n) g (plan g) { st with scc := s1 } with
      | error e => rw [he] at h; cases h
      | ok q =>
        rw [he] at h
        obtain ⟨R, st₂⟩ := q
        dsimp only at h
        have h1 := exec_fresh (findInFunc_fresh n) g _ _ _ he
        have h1n : ∀ x, st₂.scc.Vis x → ¬ st.scc.Vis x → x ≠ g → ¬ s1.Vis x := fun x _ h2 h3 h4 =>
          ((hvis x).1 h4).elim h2 h3
        have key : Fresh plan [] st st₂ := by
          refine ⟨fun x hx => h1.grow x ((hvis x).2 (.inl hx)), by simp, by simp, fun x hx hn => ?_, fun x hx hn z hz => ?_,
            fun x y z hx hnx hy hny hzx hzy => ?_, by simp⟩
          · by_cases hxg : x = g
            · rw [hxg]; exact h1.own_nodup
            · exact h1.nodup x hx (h1n x hx hn hxg)
          · by_cases hxg : x = g
            · have := h1.own_new z (hxg ▸ hz)
              exact ⟨fun k => this.1 ((hvis z).2 (.inl k)), this.2⟩
            · have := h1.new x hx (h1n x hx hn hxg) z hz
              exact ⟨fun k => this.1 ((hvis z).2 (.inl k)), this.2⟩
          · by_cases hxg : x = g
            · by_cases hyg : y = g
              · rw [hxg, hyg]
              · exact absurd (hxg ▸ hzx) (h1.apart_own y z hy (h1n y hy hny hyg) hzy)
            · by_cases hyg : y = g
              · exact absurd (hyg ▸ hzy) (h1.apart_own x z hx (h1n x hx hnx hxg) hzx)
              · exact h1.apart x y z hx (h1n x hx hnx hxg) hy (h1n y hy hny hyg) hzx hzy
        have hg : st₂.scc.Vis g := h1.grow g ((hvis g).2 (.inr rfl))
        have hself : ∀ x, st₂.scc.Vis x → ¬ st.scc.Vis x → g ∉ (plan x).visits := by
          intro x hx hn hz
          by_cases hxg : x = g
          · exact (h1.own_new g (hxg ▸ hz)).1 ((hvis g).2 (.inr rfl))
          · exact (h1.new x hx (h1n x hx hn hxg) g hz).1 ((hvis g).2 (.inr rfl))
        cases hend : (st₂.setFound g R).scc.endVisit g with
        | error e => rw [hend] at h; cases h
        | ok q =>
          obtain ⟨c, scc⟩ := q
          rw [hend] at h
          have k : ∀ x, scc.Vis x ↔ st₂.scc.Vis x := (endVisit_same hend).1
          have fin : ∀ st₃ : Search N D, st₃.scc = scc → Fresh plan [] st st₃ ∧ ¬ st.scc.Vis g ∧ st₃.scc.Vis g ∧
              (∀ h, st₃.scc.Vis h → ¬ st.scc.Vis h → g ∉ (plan h).visits) := by
            intro st₃ e
            have h3 : Fresh plan [] st₂ st₃ := .of_same fun x => by rw [e]; exact k x
            exact ⟨key.trans h3, hnv, by rw [e]; exact (k g).2 hg, fun x hx hn => hself x ((k x).1 (e ▸ hx)) hn⟩
          cases c with
          | none => cases h; exact fin _ rfl
          | some C =>
            cases h
            exact fin _ (unify_scc _ C).1

theorem findAll_fresh (fuel : Nat) : ∀ (order : List N) (st : Search N D) r, findAll plan fuel order st = .ok r → Fresh plan [] st r.2
  | [], st, r, h => by cases h; exact .of_same fun _ => Iff.rfl
  | f :: fs, st, r, h => by
    unfold findAll at h
    cases hc : findCached plan fuel f st with
    | error e => rw [hc] at h; cases h
    | ok q =>
      rw [hc] at h
      obtain ⟨S, st₁⟩ := q
      simp only [bind, Except.bind] at h
      have h1 : Fresh plan [] st st₁ := by
        unfold findCached at hc
        split at hc
        · cases hc; exact .of_same fun _ => Iff.rfl
        · exact (findInFunc_fresh _ _ _ _ hc).1
      cases hr : findAll plan fuel fs st₁ with
      | error e => rw [hr] at h; cases h
      | ok q =>
        rw [hr] at h
        cases h
        exact h1.trans (findAll_fresh fuel fs st₁ q hr)

end Search

namespace Props.CallGraph
variable {N D : Type} [DecidableEq N]

/-- A literal which is visited is not called in another way: as a syntax node it either is the function of a call expression, or
the value assigned to a variable. -/
def ValuesUncalled (plan : N → Plan N D) (order : List N) : Prop :=
  ∀ f, ∀ z ∈ (plan f).visits, z ∉ order ∧ ∀ g, z ∉ (plan g).calls

/-- **C22**, for the search over functions, exactly: it ends without a panic if and only if, among the functions reachable
from the analysed ones, no body makes the analyzer panic by itself, and no literal is found twice as the value of a called variable:
neither in one body nor in two.  (A depth of the number of functions suffices; see `terminates`.) -/
theorem succeeds_iff {plan : N → Plan N D} {U : List N} (hU : ClosedIn plan U) {order : List N} (ho : ∀ f ∈ order, f ∈ U)
    (hv : ValuesUncalled plan order) :
    (∃ r, Search.findAll plan (U.length + 1) order Search.start = .ok r) ↔
    ∀ f, (∃ r ∈ order, Reach (Calls plan) r f) → (plan f).panics = false ∧ (plan f).visits.Nodup ∧
      ∀ g, (∃ r ∈ order, Reach (Calls plan) r g) → g ≠ f → ∀ z ∈ (plan f).visits, z ∉ (plan g).visits := by
  constructor
  · rintro ⟨⟨res, st⟩, h⟩
    obtain ⟨hl, -⟩ := Search.findAll_looked _ order _ _ Search.tidy_start h
    have h0 : ∀ g, ¬ (Search.start : Search N D).scc.Vis g := fun g => by simp [Search.start, Scc.start, Scc.Vis]
    have hf := Search.findAll_fresh _ order _ _ h
    have hc := Search.findAll_calm _ order _ _ h
    intro f hr
    have hvf := (hl.vis_iff f).2 hr
    refine ⟨(hc f hvf).resolve_left (h0 f), hf.nodup f hvf (h0 f), fun g hg hne z hz hz' => hne ?_⟩
    exact hf.apart g f z ((hl.vis_iff g).2 hg) (h0 g) hvf (h0 f) hz' hz
  · intro h
    have hs : Search.Safe plan fun f => ∃ r ∈ order, Reach (Calls plan) r f :=
      ⟨fun x ⟨r, hr, hx⟩ y hy => ⟨r, hr, hx.snoc hy⟩, fun x hx => (h x hx).1, fun x hx => (h x hx).2.1,
        fun x y z hx hy hzx hzy => Classical.byContradiction fun hne => (h x hx).2.2 y hy (fun e => hne e.symm) z hzx hzy,
        fun x y z _ _ hz => (hv x z hz).2 y⟩
    have h1 := Search.findAll_safe hs (U.length + 1) order Search.start (fun f hf => ⟨f, hf, .refl f⟩)
      (fun f hf g _ hz => (hv g f hz).1 hf) (by simp [Search.start, Scc.start, Scc.Vis])
      (fun f z _ _ hz => by simp [Search.start, Scc.start, Scc.Vis] at hz)
    have h2 := terminates hU ho
    unfold Search.OkOr at h1
    split at h1
    · rename_i a ha; exact ⟨a, ha⟩
    · rename_i e he; rw [he, h1] at h2; exact absurd rfl h2

/-- Whether the search succeeds does not depend on the order. -/
theorem success_order_independent {plan : N → Plan N D} {U : List N} (hU : ClosedIn plan U) {order order' : List N}
    (hp : order.Perm order') (ho : ∀ f ∈ order, f ∈ U) (hv : ValuesUncalled plan order) :
    (∃ r, Search.findAll plan (U.length + 1) order Search.start = .ok r) ↔
    ∃ r, Search.findAll plan (U.length + 1) order' Search.start = .ok r := by
  have hv' : ValuesUncalled plan order' := fun f z hz => ⟨fun h => (hv f z hz).1 (hp.mem_iff.2 h), (hv f z hz).2⟩
  rw [succeeds_iff hU ho hv, succeeds_iff hU (fun f hf => ho f (hp.mem_iff.2 hf)) hv']
  simp only [hp.mem_iff]

/-! ## The hypotheses are met -/

/-- The literal that calls back (of `order_matters`): closed, its literal is not called in another way, and the search succeeds in
both orders. -/
example : ClosedIn callback [0, 1, 2] ∧ ValuesUncalled callback [0, 1] ∧
    (∃ r, Search.findAll callback 4 [0, 1] Search.start = .ok r) ∧ ∃ r, Search.findAll callback 4 [1, 0] Search.start = .ok r := by
  have hc : ClosedIn callback [0, 1, 2] := by
    intro f hf g hg
    simp only [List.mem_cons, List.not_mem_nil, or_false] at hf
    rcases hf with rfl | rfl | rfl <;> simp [Calls, callback, Plan.targets] at hg <;> simp [hg]
  have hv : ValuesUncalled callback [0, 1] := by
    intro f z hz
    have h2 : z = 2 := by
      match f, hz with
      | 0, hz => simp [callback, Plan.visits] at hz
      | 1, hz => simpa [callback, Plan.visits] using hz
      | 2, hz => simp [callback, Plan.visits] at hz
      | _ + 3, hz => simp [callback, Plan.visits] at hz
    subst h2
    refine ⟨by decide, fun g hg => ?_⟩
    match g, hg with
    | 0, hg => simp [callback, Plan.calls] at hg
    | 1, hg => simp [callback, Plan.calls] at hg
    | 2, hg => simp [callback, Plan.calls] at hg
    | _ + 3, hg => simp [callback, Plan.calls] at hg
  have h1 : ∃ r, Search.findAll callback 4 [0, 1] Search.start = .ok r := by
    cases h : Search.findAll callback 4 [0, 1] Search.start with
    | ok r => exact ⟨r, rfl⟩
    | error e =>
      have : comparedWith (Search.findAll callback 4 [0, 1] Search.start) 1 = some [b!"b-error"] := by decide
      rw [h] at this; simp [comparedWith, Except.toOption] at this
  exact ⟨hc, hv, h1, (success_order_independent (U := [0, 1, 2]) hc (List.Perm.swap 1 0 []) (by decide) hv).1 h1⟩

/-- And it fails, as `succeeds_iff` says, if two functions call the same literal. -/
example : ¬ ∃ r, Search.findAll (fun n : Nat => if n = 0 then .visit 2 else if n = 1 then .visit 2 else .codes [] : Nat → Plan Nat Unit)
    4 [0, 1] Search.start = .ok r := by
  rintro ⟨r, h⟩
  have : (Search.findAll (fun n : Nat => if n = 0 then .visit 2 else if n = 1 then .visit 2 else .codes [] : Nat → Plan Nat Unit)
    4 [0, 1] Search.start).map Prod.fst = .error .revisit := by rfl
  rw [h] at this; cases this

end Props.CallGraph
end Serum
