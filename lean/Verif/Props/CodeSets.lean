import Verif.CodeSetLemmas

/-!
# C11 — code sets behave as mathematical sets

All statements are about the heap model of `set_operations.go`: maps are references, so "the inputs
are not modified" and "nil is allowed" are real claims, and every `range` loop has its own arbitrary
enumeration order.
-/

namespace Serum.Props.CodeSets
open Serum Serum.HeapM

/-- A possible `range` order: some permutation of the keys. -/
def IsOrder (ord : CodeSet → List GoString) : Prop := ∀ s : CodeSet, (ord s).Perm s

/-- Go maps have no duplicate keys. -/
def WF (h : Heap) : Prop := ∀ s ∈ h, s.Nodup

/-- Every map that existed before still has the same keys. -/
def Untouched (h h' : Heap) : Prop := ∀ m, Live h m → keys h' m = keys h m

/-- A reference different from every reference that existed before. -/
def Fresh (h : Heap) (m : MapRef) : Prop := m ≠ none ∧ ¬ Live h m

theorem wf_snoc {h : Heap} (w : WF h) {s : CodeSet} (hs : s.Nodup) : WF (h ++ [s]) := by
  intro t ht
  rcases List.mem_append.1 ht with h1 | h1
  · exact w t h1
  · simp at h1; subst h1; exact hs

theorem fresh_new (h : Heap) : Fresh h (some h.length) :=
  ⟨by simp, fun c => by simpa using c h.length rfl⟩

/-- **C11 (SliceToSet / Set).** The result is a fresh map whose keys are exactly the values given;
it never panics and no existing map changes. -/
theorem sliceToSet_spec (vs : List GoString) (h : Heap) (w : WF h) :
    ∃ r h', sliceToSet vs h = some (r, h') ∧ Fresh h r ∧ Live h' r ∧ Untouched h h' ∧ WF h' ∧
      ∀ v, v ∈ keys h' r ↔ v ∈ vs := by
  refine ⟨_, _, sliceToSet_eq vs h, fresh_new h, ?_, ?_, wf_snoc w (CodeSet.nodup_ofSlice vs), ?_⟩
  · intro n hn; simp at hn; subst hn; simp
  · intro m hm; exact keys_append_old hm _
  · intro v; rw [keys_append_new]; exact CodeSet.mem_ofSlice

/-- **C11 (Slice).** For every iteration order the slice lists every element exactly once, and the
heap is unchanged. -/
theorem slice_spec (ord : CodeSet → List GoString) (ho : IsOrder ord) (m : MapRef) (h : Heap) (w : WF h) :
    ∃ l, slice ord m h = some (l, h) ∧ l.Nodup ∧ ∀ v, v ∈ l ↔ v ∈ keys h m := by
  refine ⟨_, rfl, ?_, fun v => (ho _).mem_iff⟩
  rw [(ho _).nodup_iff]
  cases m with
  | none => simp [keys]
  | some n =>
    simp only [keys, List.getD]
    cases hc : h[n]? with
    | none => simp
    | some s => exact w s (List.mem_of_getElem? hc)

/-- **C11 (Add).** Adding to an existing map adds exactly that key, to that map only. -/
theorem add_spec (n : Nat) (v : GoString) (h : Heap) (w : WF h) (hn : n < h.length) :
    ∃ h', addKey (some n) v h = some ((), h') ∧ WF h' ∧
      (∀ x, x ∈ keys h' (some n) ↔ x ∈ keys h (some n) ∨ x = v) ∧
      ∀ m, m ≠ some n → keys h' m = keys h m := by
  refine ⟨_, rfl, ?_, ?_, ?_⟩
  · intro s hs
    rcases List.mem_or_eq_of_mem_set hs with h1 | h1
    · exact w s h1
    · subst h1
      apply CodeSet.nodup_add
      rw [List.getD, List.getElem?_eq_getElem hn]
      exact w _ (List.getElem_mem hn)
  · intro x; simp [keys, List.getD, hn, CodeSet.mem_add]
  · intro m hm
    cases m with
    | none => rfl
    | some k =>
      have : n ≠ k := by intro e; exact hm (by rw [e])
      simp [keys, List.getD, this]

/-- Adding to the nil map is the only panic of the set operations. -/
theorem add_nil_panics (v : GoString) (h : Heap) : addKey none v h = none := rfl

/-- **C11 (Union).** For all (also nil, also identical) inputs and all iteration orders: no panic,
fresh result, inputs and all other maps unchanged, membership is disjunction. -/
theorem union_spec (o₁ o₂ : CodeSet → List GoString) (h₁ : IsOrder o₁) (h₂ : IsOrder o₂)
    (a b : MapRef) (h : Heap) (w : WF h) (ha : Live h a) (hb : Live h b) :
    ∃ r h', union o₁ o₂ a b h = some (r, h') ∧ Fresh h r ∧ Live h' r ∧ Untouched h h' ∧ WF h' ∧
      ∀ v, v ∈ keys h' r ↔ v ∈ keys h a ∨ v ∈ keys h b := by
  refine ⟨_, _, union_eq o₁ o₂ ha hb, fresh_new h, ?_, ?_, wf_snoc w ?_, ?_⟩
  · intro n hn; simp at hn; subst hn; simp
  · intro m hm; exact keys_append_old hm _
  · exact CodeSet.nodup_foldl_add _ (CodeSet.nodup_foldl_add _ (by simp))
  · intro v; rw [keys_append_new, CodeSet.mem_foldl_add, CodeSet.mem_foldl_add,
      (h₁ _).mem_iff, (h₂ _).mem_iff]; simp

/-- **C11 (Difference).** As for Union; membership is "in the first and not in the second". -/
theorem difference_spec (o : CodeSet → List GoString) (ho : IsOrder o)
    (a b : MapRef) (h : Heap) (w : WF h) (ha : Live h a) (hb : Live h b) :
    ∃ r h', difference o a b h = some (r, h') ∧ Fresh h r ∧ Live h' r ∧ Untouched h h' ∧ WF h' ∧
      ∀ v, v ∈ keys h' r ↔ v ∈ keys h a ∧ v ∉ keys h b := by
  refine ⟨_, _, difference_eq o ha hb, fresh_new h, ?_, ?_, wf_snoc w ?_, ?_⟩
  · intro n hn; simp at hn; subst hn; simp
  · intro m hm; exact keys_append_old hm _
  · exact CodeSet.nodup_foldl_diff _ _ (by simp)
  · intro v; rw [keys_append_new, CodeSet.mem_foldl_diff, (ho _).mem_iff]; simp

/-- **C11 (order independence).** Whatever the iteration orders, the resulting sets hold the same
keys. -/
theorem union_order_independent (o₁ o₂ o₁' o₂' : CodeSet → List GoString)
    (h₁ : IsOrder o₁) (h₂ : IsOrder o₂) (h₁' : IsOrder o₁') (h₂' : IsOrder o₂')
    (a b : MapRef) (h : Heap) (w : WF h) (ha : Live h a) (hb : Live h b) {r r' h' h''}
    (e : union o₁ o₂ a b h = some (r, h')) (e' : union o₁' o₂' a b h = some (r', h'')) :
    r = r' ∧ (keys h' r).Perm (keys h'' r') := by
  obtain ⟨s, k, e1, _, hl, _, wf, hm⟩ := union_spec o₁ o₂ h₁ h₂ a b h w ha hb
  obtain ⟨s', k', e1', _, hl', _, wf', hm'⟩ := union_spec o₁' o₂' h₁' h₂' a b h w ha hb
  have hr : r = r' := by
    rw [union_eq _ _ ha hb] at e e'; simp at e e'; rw [← e.1, ← e'.1]
  rw [e] at e1; rw [e'] at e1'
  simp only [Option.some.injEq, Prod.mk.injEq] at e1 e1'
  obtain ⟨rfl, rfl⟩ := e1
  obtain ⟨rfl, rfl⟩ := e1'
  refine ⟨hr, ?_⟩
  have nd : ∀ (h : Heap) m, WF h → (keys h m).Nodup := by
    intro h m w
    cases m with
    | none => simp [keys]
    | some n =>
      simp only [keys, List.getD]
      cases hc : h[n]? with
      | none => simp
      | some s => exact w s (List.mem_of_getElem? hc)
  rw [List.perm_ext_iff_of_nodup (nd _ _ wf) (nd _ _ wf')]
  intro v; rw [hm, hm']

/-- The value model used by the rest of the development computes the same keys as the heap model
(for the identity order), so membership facts transfer for every order. -/
theorem value_model_agrees (a b : MapRef) (h : Heap) (ha : Live h a) (hb : Live h b) :
    union id id a b h = some (some h.length, h ++ [CodeSet.union (keys h a) (keys h b)]) ∧
    difference id a b h = some (some h.length, h ++ [CodeSet.diff (keys h a) (keys h b)]) := by
  exact ⟨by rw [union_eq _ _ ha hb]; rfl, by rw [difference_eq _ ha hb]; rfl⟩

/-- Non-vacuity: a heap with two maps, a nil argument, a reversing iteration order. -/
example : WF [[b!"a", b!"b"], [b!"b"]] ∧ IsOrder List.reverse ∧
    Live [[b!"a", b!"b"], [b!"b"]] (some 1) ∧ Live [[b!"a", b!"b"], [b!"b"]] none ∧
    difference List.reverse (some 0) (some 1) [[b!"a", b!"b"], [b!"b"]] =
      some (some 2, [[b!"a", b!"b"], [b!"b"], [b!"a"]]) ∧
    union List.reverse id (some 0) none [[b!"a", b!"b"], [b!"b"]] =
      some (some 2, [[b!"a", b!"b"], [b!"b"], [b!"b", b!"a"]]) := by
  refine ⟨by unfold WF; decide, fun s => List.reverse_perm s, ?_, ?_, by decide, by decide⟩
  · intro n hn; simp at hn; subst hn; decide
  · intro n hn; simp at hn

end Serum.Props.CodeSets
