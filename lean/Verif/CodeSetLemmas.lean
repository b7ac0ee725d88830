import Verif.CodeSet

namespace Serum
namespace CodeSet

theorem mem_add {s : CodeSet} {v w : GoString} : w ∈ s.add v ↔ w ∈ s ∨ w = v := by
  unfold add; split
  · constructor
    · exact Or.inl
    · rintro (h | rfl) <;> assumption
  · simp

theorem nodup_add {s : CodeSet} (h : s.Nodup) (v : GoString) : (s.add v).Nodup := by
  unfold add; split
  · exact h
  · rename_i hv
    rw [List.nodup_append]
    refine ⟨h, by simp, ?_⟩
    intro a ha b hb
    simp at hb; subst hb
    intro e; subst e; exact hv ha

theorem mem_foldl_add (vs : List GoString) (s : CodeSet) (w : GoString) :
    w ∈ vs.foldl add s ↔ w ∈ s ∨ w ∈ vs := by
  induction vs generalizing s with
  | nil => simp
  | cons v vs ih => simp [ih, mem_add, or_assoc]

theorem nodup_foldl_add (vs : List GoString) {s : CodeSet} (h : s.Nodup) :
    (vs.foldl add s).Nodup := by
  induction vs generalizing s with
  | nil => simpa
  | cons v vs ih => exact ih (nodup_add h v)

@[simp] theorem mem_ofSlice {vs : List GoString} {w : GoString} : w ∈ ofSlice vs ↔ w ∈ vs := by
  simp [ofSlice, mem_foldl_add]

theorem nodup_ofSlice (vs : List GoString) : (ofSlice vs).Nodup := nodup_foldl_add _ (by simp)

@[simp] theorem mem_union {s t : CodeSet} {w : GoString} : w ∈ union s t ↔ w ∈ s ∨ w ∈ t := by
  simp [union, mem_foldl_add]

theorem nodup_union (s t : CodeSet) : (union s t).Nodup :=
  nodup_foldl_add _ (nodup_foldl_add _ (by simp))

theorem mem_foldl_diff (t s : CodeSet) (d : CodeSet) (w : GoString) :
    w ∈ s.foldl (fun d v => if v ∈ t then d else add d v) d ↔ w ∈ d ∨ (w ∈ s ∧ w ∉ t) := by
  induction s generalizing d with
  | nil => simp
  | cons v s ih =>
    simp only [List.foldl_cons, ih, List.mem_cons]
    by_cases hv : v ∈ t
    · simp only [hv, if_true]
      constructor
      · rintro (h | h)
        · exact .inl h
        · exact .inr ⟨.inr h.1, h.2⟩
      · rintro (h | ⟨rfl | h, h2⟩)
        · exact .inl h
        · exact absurd hv h2
        · exact .inr ⟨h, h2⟩
    · simp only [hv, if_false, mem_add]
      constructor
      · rintro ((h | rfl) | h)
        · exact .inl h
        · exact .inr ⟨.inl rfl, hv⟩
        · exact .inr ⟨.inr h.1, h.2⟩
      · rintro (h | ⟨rfl | h, h2⟩)
        · exact .inl (.inl h)
        · exact .inl (.inr rfl)
        · exact .inr ⟨h, h2⟩

@[simp] theorem mem_diff {s t : CodeSet} {w : GoString} : w ∈ diff s t ↔ w ∈ s ∧ w ∉ t := by
  simp [diff, mem_foldl_diff]

theorem nodup_foldl_diff (t s : CodeSet) {d : CodeSet} (h : d.Nodup) :
    (s.foldl (fun d v => if v ∈ t then d else add d v) d).Nodup := by
  induction s generalizing d with
  | nil => simpa
  | cons v s ih =>
    simp only [List.foldl_cons]
    apply ih
    split
    · exact h
    · exact nodup_add h v

theorem nodup_diff (s t : CodeSet) : (diff s t).Nodup := nodup_foldl_diff _ _ (by simp)

end CodeSet

namespace HeapM

@[simp] theorem bind_apply {α β : Type} (m : HeapM α) (f : α → HeapM β) (h : Heap) :
    bind m f h = match m h with | none => none | some (a, h') => f a h' := rfl

/-- `h` grew to `h'` by one cell `r` holding `s`, all older cells being unchanged. -/
theorem keys_append_old {h : Heap} {m : MapRef} (hm : ∀ n, m = some n → n < h.length) (s : CodeSet) :
    keys (h ++ [s]) m = keys h m := by
  cases m with
  | none => rfl
  | some n =>
    have := hm n rfl
    simp [keys, List.getD, List.getElem?_append_left this]

theorem keys_append_new (h : Heap) (s : CodeSet) : keys (h ++ [s]) (some h.length) = s := by
  simp [keys, List.getD]

theorem store_new (h : Heap) (s : CodeSet) (v : GoString) :
    store (some h.length) v (h ++ [s]) = some ((), h ++ [s.add v]) := by
  simp [store, List.getD]

theorem forEach_store_new (vs : List GoString) (h : Heap) (s : CodeSet) :
    forEach vs (fun v => store (some h.length) v) (h ++ [s]) =
      some ((), h ++ [vs.foldl CodeSet.add s]) := by
  induction vs generalizing s with
  | nil => rfl
  | cons v vs ih => simp [forEach, store_new, ih]

theorem sliceToSet_eq (vs : List GoString) (h : Heap) :
    sliceToSet vs h = some (some h.length, h ++ [CodeSet.ofSlice vs]) := by
  simp [sliceToSet, alloc, forEach_store_new, CodeSet.ofSlice]

/-- A reference that is nil or allocated. -/
def Live (h : Heap) (m : MapRef) : Prop := ∀ n, m = some n → n < h.length

theorem union_eq (o₁ o₂ : CodeSet → List GoString) {h : Heap} {a b : MapRef}
    (ha : Live h a) (hb : Live h b) :
    union o₁ o₂ a b h =
      some (some h.length, h ++ [(o₂ (keys h b)).foldl CodeSet.add
        ((o₁ (keys h a)).foldl CodeSet.add [])]) := by
  simp [union, alloc, range, keys_append_old ha, keys_append_old hb, forEach_store_new]

theorem forEach_diff (vs : List GoString) {h : Heap} {b : MapRef} (hb : Live h b) (s : CodeSet) :
    forEach vs (fun value => bind (load b value) fun ok =>
      if ok then fun h => some ((), h) else store (some h.length) value) (h ++ [s]) =
      some ((), h ++ [vs.foldl (fun d v => if v ∈ keys h b then d else CodeSet.add d v) s]) := by
  induction vs generalizing s with
  | nil => rfl
  | cons v vs ih =>
    simp only [forEach, bind_apply, load, keys_append_old hb, List.foldl_cons]
    by_cases hv : v ∈ keys h b
    · simp only [hv, decide_true, if_true]; exact ih s
    · simp only [hv, decide_false, if_false, Bool.false_eq_true, store_new]; exact ih _

theorem difference_eq (o : CodeSet → List GoString) {h : Heap} {a b : MapRef}
    (ha : Live h a) (hb : Live h b) :
    difference o a b h =
      some (some h.length, h ++ [(o (keys h a)).foldl
        (fun d v => if v ∈ keys h b then d else CodeSet.add d v) []]) := by
  simp only [difference, bind_apply, alloc, range, keys_append_old ha]
  rw [forEach_diff _ hb]

end HeapM
end Serum
