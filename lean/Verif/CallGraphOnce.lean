import Verif.CallGraphFuel

/-! # Each body is looked at once

Whatever the plans: nothing is assumed about function literals here. -/

set_option linter.unusedSectionVars false

namespace Serum
namespace Search
variable {N D : Type} [DecidableEq N] {plan : N → Plan N D}

/-- Only visited functions have codes or are on the stack. -/
structure Tidy (st : Search N D) : Prop where
  found : ∀ x S, st.found x = some S → st.scc.Vis x
  stack : ∀ x ∈ st.scc.stack, st.scc.Vis x

/-- What a part of the search does to the visited functions and the diagnostics: starting from `rs`, and adding `extra`
itself. -/
structure Looked (plan : N → Plan N D) (rs : List N) (extra : N → List D) (st st' : Search N D) : Prop where
  grow : ∀ x, st.scc.Vis x → st'.scc.Vis x
  tidy : Tidy st'
  roots : ∀ x ∈ rs, st'.scc.Vis x
  new : ∀ x, st'.scc.Vis x → ¬ st.scc.Vis x →
    (∃ g ∈ rs, Reach (Calls plan) g x) ∧ ∀ y ∈ (plan x).targets, st'.scc.Vis y
  diags_old : ∀ x, st.scc.Vis x → st'.diagsOf x = st.diagsOf x ++ extra x
  diags_new : ∀ x, ¬ st.scc.Vis x → st'.scc.Vis x → st'.diagsOf x = st.diagsOf x ++ (plan x).reports
  diags_not : ∀ x, ¬ st'.scc.Vis x → st'.diagsOf x = st.diagsOf x

/-- Diagnostics added by `cur` itself. -/
def by_ (cur : N) (l : List D) (x : N) : List D := if x = cur then l else []

theorem Looked.trans {r₁ r₂ : List N} {cur : N} {l₁ l₂ : List D} {st₁ st₂ st₃ : Search N D} (hc : st₁.scc.Vis cur)
    (h₁ : Looked plan r₁ (by_ cur l₁) st₁ st₂) (h₂ : Looked plan r₂ (by_ cur l₂) st₂ st₃) :
    Looked plan (r₁ ++ r₂) (by_ cur (l₁ ++ l₂)) st₁ st₃ where
  grow x hx := h₂.grow x (h₁.grow x hx)
  tidy := h₂.tidy
  roots x hx := by
    rcases List.mem_append.1 hx with hx | hx
    · exact h₂.grow x (h₁.roots x hx)
    · exact h₂.roots x hx
  new x hx hn := by
    by_cases hv : st₂.scc.Vis x
    · obtain ⟨⟨g, hg, hr⟩, hy⟩ := h₁.new x hv hn
      exact ⟨⟨g, by simp [hg], hr⟩, fun y hm => h₂.grow y (hy y hm)⟩
    · obtain ⟨⟨g, hg, hr⟩, hy⟩ := h₂.new x hx hv
      exact ⟨⟨g, by simp [hg], hr⟩, hy⟩
  diags_old x hx := by
    rw [h₂.diags_old x (h₁.grow x hx), h₁.diags_old x hx]
    unfold by_; split <;> simp
  diags_new x hn hx := by
    have hne : x ≠ cur := fun e => hn (e ▸ hc)
    by_cases hv : st₂.scc.Vis x
    · rw [h₂.diags_old x hv, h₁.diags_new x hn hv]; simp [by_, hne]
    · rw [h₂.diags_new x hv hx, h₁.diags_not x hv]
  diags_not x hx := by
    rw [h₂.diags_not x hx, h₁.diags_not x fun h => hx (h₂.grow x h)]

/-- A step which only touches the bookkeeping of visited functions. -/
theorem Looked.of_same {st st' : Search N D} {r : List N} {cur : N} (hv : ∀ x, st'.scc.Vis x ↔ st.scc.Vis x) (ht : Tidy st')
    (hr : ∀ x ∈ r, st'.scc.Vis x) (hd : ∀ x, st'.diagsOf x = st.diagsOf x) : Looked plan r (by_ cur []) st st' where
  grow x hx := (hv x).2 hx
  tidy := ht
  roots := hr
  new x hx hn := absurd ((hv x).1 hx) hn
  diags_old x _ := by rw [hd]; simp [by_]
  diags_new x hn hx := absurd ((hv x).1 hx) hn
  diags_not x _ := hd x

theorem setVertex_vis_iff {s : Scc N} {f : N} {v w : Vertex} (hf : s.vertices f = some w) {x : N} :
    (s.setVertex f v).Vis x ↔ s.Vis x := by
  by_cases hx : x = f <;> simp_all [Scc.Vis, Scc.setVertex]

theorem handleEdge_same {s s' : Scc N} {a b : N} {r : Bool} (h : s.handleEdge a b = .ok (r, s')) :
    (∀ x, s'.Vis x ↔ s.Vis x) ∧ s'.stack = s.stack ∧ (r = false → s.Vis b) := by
  unfold Scc.handleEdge at h
  split at h
  · cases h; exact ⟨fun _ => Iff.rfl, rfl, by simp⟩
  · rename_i t ht
    have hb : s.Vis b := by simp [Scc.Vis, ht]
    split at h
    · split at h
      · cases h
      · rename_i w hw; cases h; exact ⟨fun x => setVertex_vis_iff hw, rfl, fun _ => hb⟩
    · cases h; exact ⟨fun _ => Iff.rfl, rfl, fun _ => hb⟩

theorem afterRecurse_same {s s' : Scc N} {a b : N} (h : s.afterRecurse a b = .ok s') :
    (∀ x, s'.Vis x ↔ s.Vis x) ∧ s'.stack = s.stack := by
  unfold Scc.afterRecurse at h
  split at h
  · rename_i hf _; cases h; exact ⟨fun x => setVertex_vis_iff hf, rfl⟩
  · cases h

theorem popTo_sub {n : N} : ∀ {l p r : List N}, Scc.popTo n l = some (p, r) → (∀ x ∈ p, x ∈ l) ∧ ∀ x ∈ r, x ∈ l
  | [], p, r, h => by cases h
  | a :: l, p, r, h => by
    unfold Scc.popTo at h
    split at h
    · cases h; simp +contextual
    · split at h
      · cases h
      · rename_i p' r' hp
        cases h
        obtain ⟨h1, h2⟩ := popTo_sub hp
        refine ⟨fun x hx => ?_, fun x hx => by simp [h2 x hx]⟩
        rcases List.mem_cons.1 hx with rfl | hx
        · simp
        · simp [h1 x hx]

theorem endVisit_same {s s' : Scc N} {a : N} {c : Option (List N)} (h : s.endVisit a = .ok (c, s')) :
    (∀ x, s'.Vis x ↔ s.Vis x) ∧ (∀ x ∈ s'.stack, x ∈ s.stack) ∧ ∀ C, c = some C → ∀ x ∈ C, x ∈ s.stack := by
  unfold Scc.endVisit at h
  split at h
  · cases h
  · split at h
    · cases h; exact ⟨fun _ => Iff.rfl, fun _ h => h, by simp⟩
    · split at h
      · cases h
      · rename_i p r hp
        cases h
        obtain ⟨h1, h2⟩ := popTo_sub hp
        refine ⟨fun x => ?_, h2, fun C hC x hx => ?_⟩
        · simp only [Scc.Vis, Scc.clear]
          split <;> simp
        · cases hC; exact h1 x (List.mem_reverse.1 hx)

theorem Tidy.unify {st : Search N D} (h : Tidy st) {C : List N} (hC : ∀ x ∈ C, st.scc.Vis x) : Tidy (st.unify C).2 := by
  unfold Search.unify
  generalize C.foldl (fun r f => CodeSet.union r ((st.found f).getD [])) [] = R
  dsimp only
  induction C generalizing st with
  | nil => exact h
  | cons a C ih =>
    rw [List.foldl_cons]
    refine ih (st := st.setFound a R) ⟨fun x S hx => ?_, h.stack⟩ fun x hx => hC x (by simp [hx])
    simp only [Search.setFound] at hx
    split at hx
    · rename_i e; exact e ▸ hC a (by simp)
    · exact h.found x S hx

theorem exec_looked {recurse : N → Search N D → Except Stop (CodeSet × Search N D)}
    (hrec : ∀ g st r, Tidy st → recurse g st = .ok r → ∀ cur, Looked plan [g] (by_ cur []) st r.2) (f : N) :
    ∀ (p : Plan N D) (st : Search N D) r, Tidy st → st.scc.Vis f → exec recurse f p st = .ok r →
      Looked plan p.targets (by_ f p.reports) st r.2 := by
  intro p
  induction p with
  | codes s => intro st r ht _ h; cases h; exact .of_same (fun _ => Iff.rfl) ht (by simp [Plan.targets]) fun _ => rfl
  | report d =>
    intro st r ht hf h
    cases h
    refine ⟨fun _ h => h, ⟨ht.found, ht.stack⟩, by simp [Plan.targets], fun x hx hn => absurd hx hn, fun x _ => ?_,
      fun x hn hx => absurd hx hn, fun x hx => ?_⟩
    · by_cases hxf : x = f
      · subst hxf; simp [diagsOf, by_, Plan.reports]
      · have : ¬ f = x := fun e => hxf e.symm
        simp [diagsOf, by_, hxf, this]
    · have : ¬ f = x := fun e => hx (e ▸ hf)
      simp [diagsOf, this]
  | panic loc => intro st r _ _ h; cases h
  | call g =>
    intro st r ht hf h
    unfold exec at h
    cases hh : st.scc.handleEdge f g with
    | error e => rw [hh] at h; cases h
    | ok q =>
      obtain ⟨b, scc⟩ := q
      rw [hh] at h
      simp only [bind, Except.bind] at h
      obtain ⟨hv, hs, hb⟩ := handleEdge_same hh
      have ht' : Tidy ({ st with scc := scc } : Search N D) :=
        ⟨fun x S hx => (hv x).2 (ht.found x S hx), fun x hx => (hv x).2 (ht.stack x (hs ▸ hx))⟩
      have h0 : Looked plan [] (by_ f []) st { st with scc := scc } := .of_same hv ht' (by simp) fun _ => rfl
      cases b with
      | false =>
        simp only [Bool.false_eq_true, if_false] at h
        cases h
        exact .of_same hv ht' (by simpa [Plan.targets] using (hv g).2 (hb rfl)) fun _ => rfl
      | true =>
        simp only [if_true] at h
        cases hr : recurse g { st with scc := scc } with
        | error e => rw [hr] at h; cases h
        | ok q =>
          rw [hr] at h
          obtain ⟨R, st₂⟩ := q
          dsimp only at h
          cases ha : st₂.scc.afterRecurse f g with
          | error e => rw [ha] at h; cases h
          | ok s =>
            rw [ha] at h
            cases h
            have h1 := hrec g _ _ ht' hr f
            obtain ⟨hv2, hs2⟩ := afterRecurse_same ha
            have h2 : Looked plan [] (by_ f []) st₂ { st₂ with scc := s } :=
              .of_same hv2 ⟨fun x S hx => (hv2 x).2 (h1.tidy.found x S hx), fun x hx => (hv2 x).2 (h1.tidy.stack x (hs2 ▸ hx))⟩
                (by simp) fun _ => rfl
            have := (h0.trans hf h1).trans hf h2
            simpa [Plan.targets, Plan.reports] using this
  | visit g => intro st r ht hf h; exact hrec g st r ht h f
  | union a b iha ihb =>
    intro st r ht hf h
    unfold exec at h
    cases ha : exec recurse f a st with
    | error e => rw [ha] at h; cases h
    | ok q =>
      obtain ⟨x, st₁⟩ := q
      rw [ha] at h
      simp only [bind, Except.bind] at h
      have h1 := iha _ _ ht hf ha
      cases hb : exec recurse f b st₁ with
      | error e => rw [hb] at h; cases h
      | ok q =>
        rw [hb] at h
        cases h
        exact h1.trans hf (ihb _ q h1.tidy (h1.grow f hf) hb)
  | minus a s iha =>
    intro st r ht hf h
    unfold exec at h
    cases ha : exec recurse f a st with
    | error e => rw [ha] at h; cases h
    | ok q =>
      rw [ha] at h
      cases h
      exact iha _ q ht hf ha

theorem findInFunc_looked : ∀ (fuel : Nat) (f : N) (st : Search N D) r, Tidy st → findInFunc plan fuel f st = .ok r →
    ∀ cur, Looked plan [f] (by_ cur []) st r.2 := by
  intro fuel
  induction fuel with
  | zero => intro f st r _ h; cases h
  | succ n ih =>
    intro f st r ht h cur
    unfold findInFunc Scc.visit at h
    cases hv : st.scc.vertices f with
    | some v => rw [hv] at h; cases h
    | none =>
      rw [hv] at h
      simp only [bind, Except.bind] at h
      have hnf : ¬ st.scc.Vis f := by simp [Scc.Vis, hv]
      generalize hs : (Scc.mk (st.scc.index + 1)
        (st.scc.setVertex f ⟨st.scc.index, st.scc.index, true⟩).vertices (f :: st.scc.stack)) = s1 at h
      have hs1 : ∀ x, s1.Vis x ↔ st.scc.Vis x ∨ x = f := by
        intro x
        subst hs
        by_cases hxf : x = f
        · simp [Scc.Vis, Scc.setVertex, hxf]
        · simp [Scc.Vis, Scc.setVertex, hxf]
      have ht1 : Tidy ({ st with scc := s1 } : Search N D) := by
        refine ⟨fun x S hx => (hs1 x).2 (.inl (ht.found x S hx)), fun x hx => ?_⟩
        subst hs
        rcases List.mem_cons.1 hx with rfl | hx
        · exact (hs1 _).2 (.inr rfl)
        · exact (hs1 _).2 (.inl (ht.stack x hx))
      cases he : exec (findInFunc plan n) f (plan f) { st with scc := s1 } with
      | error e => rw [he] at h; cases h
      | ok q =>
        rw [he] at h
        obtain ⟨R, st₂⟩ := q
        dsimp only at h
        have h1 := exec_looked ih f _ _ _ ht1 ((hs1 f).2 (.inr rfl)) he
        have hf2 : st₂.scc.Vis f := h1.grow f ((hs1 f).2 (.inr rfl))
        cases hend : (st₂.setFound f R).scc.endVisit f with
        | error e => rw [hend] at h; cases h
        | ok q =>
          obtain ⟨c, scc⟩ := q
          rw [hend] at h
          obtain ⟨hv3, hs3, hC⟩ := endVisit_same hend
          have ht3 : Tidy ({ (st₂.setFound f R) with scc := scc } : Search N D) := by
            refine ⟨fun x S hx => (hv3 x).2 ?_, fun x hx => (hv3 x).2 (h1.tidy.stack x (hs3 x hx))⟩
            simp only [Search.setFound] at hx
            split at hx
            · rename_i e; exact e ▸ hf2
            · exact h1.tidy.found x S hx
          have key : ∀ st' : Search N D, Tidy st' → (∀ x, st'.scc.Vis x ↔ st₂.scc.Vis x) → st'.diags = st₂.diags →
              Looked plan [f] (by_ cur []) st st' := by
            intro st' ht' hv' hd'
            have hd' : ∀ x, st'.diagsOf x = st₂.diagsOf x := by intro x; unfold diagsOf; rw [hd']
            refine ⟨fun x hx => (hv' x).2 (h1.grow x ((hs1 x).2 (.inl hx))), ht', by simpa using (hv' f).2 hf2, ?_, ?_, ?_, ?_⟩
            · intro x hx hn
              by_cases hxf : x = f
              · subst hxf
                exact ⟨⟨x, by simp, .refl x⟩, fun y hy => (hv' y).2 (h1.roots y hy)⟩
              · have hn1 : ¬ s1.Vis x := fun h => ((hs1 x).1 h).elim hn hxf
                obtain ⟨⟨g, hg, hr⟩, hy⟩ := h1.new x ((hv' x).1 hx) hn1
                exact ⟨⟨f, by simp, .step hg hr⟩, fun y hm => (hv' y).2 (hy y hm)⟩
            · intro x hx
              have hne : x ≠ f := fun e => hnf (e ▸ hx)
              rw [hd', h1.diags_old x ((hs1 x).2 (.inl hx))]
              simp only [by_, hne, if_false, ite_self]
              rfl
            · intro x hn hx
              rw [hd']
              by_cases hxf : x = f
              · subst hxf
                rw [h1.diags_old x ((hs1 x).2 (.inr rfl))]; simp only [by_, if_true]; rfl
              · rw [h1.diags_new x (fun h => ((hs1 x).1 h).elim hn hxf) ((hv' x).1 hx)]; rfl
            · intro x hx
              rw [hd', h1.diags_not x fun h => hx ((hv' x).2 h)]; rfl
          cases c with
          | none => cases h; exact key _ ht3 hv3 rfl
          | some C =>
            cases h
            obtain ⟨hu, hud, -⟩ := unify_scc ({ (st₂.setFound f R) with
              scc := scc, comps := (st₂.setFound f R).comps ++ [C] } : Search N D) C
            have ht4 : Tidy ({ (st₂.setFound f R) with
              scc := scc, comps := (st₂.setFound f R).comps ++ [C] } : Search N D) := ⟨ht3.found, ht3.stack⟩
            refine key _ (ht4.unify fun x hx => (hv3 x).2 (h1.tidy.stack x (hC C rfl x hx))) ?_ hud
            intro x
            rw [hu]; exact hv3 x

theorem findCached_looked (fuel : Nat) (f : N) (st : Search N D) (r) (ht : Tidy st) (h : findCached plan fuel f st = .ok r)
    (cur : N) : Looked plan [f] (by_ cur []) st r.2 := by
  unfold findCached at h
  split at h
  · rename_i s hs
    cases h
    exact .of_same (fun _ => Iff.rfl) ht (by simpa using ht.found f s hs) fun _ => rfl
  · exact findInFunc_looked _ _ _ _ ht h cur

/-- `Looked` for steps which do not belong to a function. -/
theorem Looked.trans' {r₁ r₂ : List N} {st₁ st₂ st₃ : Search N D}
    (h₁ : Looked plan r₁ (fun _ => []) st₁ st₂) (h₂ : Looked plan r₂ (fun _ => []) st₂ st₃) :
    Looked plan (r₁ ++ r₂) (fun _ => []) st₁ st₃ where
  grow x hx := h₂.grow x (h₁.grow x hx)
  tidy := h₂.tidy
  roots x hx := by
    rcases List.mem_append.1 hx with hx | hx
    · exact h₂.grow x (h₁.roots x hx)
    · exact h₂.roots x hx
  new x hx hn := by
    by_cases hv : st₂.scc.Vis x
    · obtain ⟨⟨g, hg, hr⟩, hy⟩ := h₁.new x hv hn
      exact ⟨⟨g, by simp [hg], hr⟩, fun y hm => h₂.grow y (hy y hm)⟩
    · obtain ⟨⟨g, hg, hr⟩, hy⟩ := h₂.new x hx hv
      exact ⟨⟨g, by simp [hg], hr⟩, hy⟩
  diags_old x hx := by
    rw [h₂.diags_old x (h₁.grow x hx), h₁.diags_old x hx]; simp
  diags_new x hn hx := by
    by_cases hv : st₂.scc.Vis x
    · rw [h₂.diags_old x hv, h₁.diags_new x hn hv]; simp
    · rw [h₂.diags_new x hv hx, h₁.diags_not x hv]
  diags_not x hx := by
    rw [h₂.diags_not x hx, h₁.diags_not x fun h => hx (h₂.grow x h)]

theorem Looked.nil (st : Search N D) (ht : Tidy st) : Looked plan [] (fun _ => []) st st :=
  ⟨fun _ h => h, ht, by simp, fun x hx hn => absurd hx hn, by simp, fun x hn hx => absurd hx hn, by simp⟩

theorem findCached_looked' (fuel : Nat) (f : N) (st : Search N D) (r) (ht : Tidy st) (h : findCached plan fuel f st = .ok r) :
    Looked plan [f] (fun _ => []) st r.2 := by
  have := findCached_looked fuel f st r ht h f
  have e : by_ f ([] : List D) = fun _ => [] := by funext x; simp [by_]
  rwa [e] at this

theorem findAll_looked (fuel : Nat) : ∀ (order : List N) (st : Search N D) r, Tidy st → findAll plan fuel order st = .ok r →
    Looked plan order (fun _ => []) st r.2 ∧ r.1.map Prod.fst = order := by
  intro order
  induction order with
  | nil => intro st r ht h; cases h; exact ⟨.nil st ht, rfl⟩
  | cons f fs ih =>
    intro st r ht h
    unfold findAll at h
    cases hc : findCached plan fuel f st with
    | error e => rw [hc] at h; cases h
    | ok q =>
      rw [hc] at h
      obtain ⟨S, st₁⟩ := q
      simp only [bind, Except.bind] at h
      have h1 := findCached_looked' _ _ _ _ ht hc
      cases hr : findAll plan fuel fs st₁ with
      | error e => rw [hr] at h; cases h
      | ok q =>
        rw [hr] at h
        cases h
        obtain ⟨h2, h3⟩ := ih _ q h1.tidy hr
        exact ⟨h1.trans' h2, by simpa using h3⟩

theorem tidy_start : Tidy (Search.start : Search N D) := ⟨by simp [Search.start], by simp [Search.start, Scc.start]⟩

/-- From the start: visited is exactly what can be reached. -/
theorem Looked.vis_iff {roots : List N} {st : Search N D} (h : Looked plan roots (fun _ => []) Search.start st) (x : N) :
    st.scc.Vis x ↔ ∃ f ∈ roots, Reach (Calls plan) f x := by
  have h0 : ∀ x, ¬ (Search.start : Search N D).scc.Vis x := by simp [Search.start, Scc.start, Scc.Vis]
  constructor
  · intro hx; exact (h.new x hx (h0 x)).1
  · rintro ⟨f, hf, hr⟩
    have hv := h.roots f hf
    clear hf
    induction hr with
    | refl a => exact hv
    | @step a b c e _ ih => exact ih ((h.new a hv (h0 a)).2 b e)

end Search
end Serum
