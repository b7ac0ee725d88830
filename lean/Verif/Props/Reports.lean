import Verif.Report
import Verif.CodeSetLemmas

/-!
# C12, C13 — mismatch reports name exactly the differences, deterministically
-/

namespace Serum.Props.Reports
open Serum Serum.GoStr

/-- A possible `range` order over a map: some permutation of its keys. -/
def IsOrder (ord : CodeSet → List GoString) : Prop := ∀ s : CodeSet, (ord s).Perm s

def AllOrders (o : MatchOrders) : Prop :=
  IsOrder o.diff₁ ∧ IsOrder o.slice₁ ∧ IsOrder o.diff₂ ∧ IsOrder o.slice₂

/-! ## Sorting -/

/-- Ascending bytewise lexicographic order. -/
def Ascending (l : List GoString) : Prop := l.Pairwise fun a b => strLe a b = true

theorem strLe_refl (a : GoString) : strLe a a = true := by
  induction a with
  | nil => rfl
  | cons x a ih => simp [strLe, ih]

theorem strLe_antisymm {a b : GoString} (h : strLe a b = true) (h' : strLe b a = true) : a = b := by
  induction a generalizing b with
  | nil => cases b with
    | nil => rfl
    | cons => simp [strLe] at h'
  | cons x a ih =>
    cases b with
    | nil => simp [strLe] at h
    | cons y b =>
      simp only [strLe, Bool.or_eq_true, decide_eq_true_eq, Bool.and_eq_true, beq_iff_eq] at h h'
      rcases h with h | ⟨rfl, h⟩
      · rcases h' with h' | ⟨rfl, _⟩
        · exact absurd h (by have := UInt8.lt_asymm h'; simpa using this)
        · exact absurd h (UInt8.lt_irrefl _)
      · rcases h' with h' | ⟨_, h'⟩
        · exact absurd h' (UInt8.lt_irrefl _)
        · rw [ih h h']

theorem strLe_trans {a b c : GoString} (h : strLe a b = true) (h' : strLe b c = true) : strLe a c = true := by
  induction a generalizing b c with
  | nil => rfl
  | cons x a ih =>
    cases b with
    | nil => simp [strLe] at h
    | cons y b =>
      cases c with
      | nil => simp [strLe] at h'
      | cons z c =>
        simp only [strLe, Bool.or_eq_true, decide_eq_true_eq, Bool.and_eq_true, beq_iff_eq] at h h' ⊢
        rcases h with h | ⟨rfl, h⟩
        · rcases h' with h' | ⟨rfl, _⟩
          · exact .inl (UInt8.lt_trans h h')
          · exact .inl h
        · rcases h' with h' | ⟨rfl, h'⟩
          · exact .inl h'
          · exact .inr ⟨rfl, ih h h'⟩

theorem strLe_total (a b : GoString) : strLe a b = true ∨ strLe b a = true := by
  induction a generalizing b with
  | nil => left; rfl
  | cons x a ih =>
    cases b with
    | nil => right; rfl
    | cons y b =>
      simp only [strLe, Bool.or_eq_true, decide_eq_true_eq, Bool.and_eq_true, beq_iff_eq]
      by_cases e : x = y
      · subst e
        rcases ih b with h | h
        · exact .inl (.inr ⟨rfl, h⟩)
        · exact .inr (.inr ⟨rfl, h⟩)
      · rcases UInt8.lt_or_lt_of_ne e with h | h
        · exact .inl (.inl h)
        · exact .inr (.inl h)

theorem insertSorted_perm (x : GoString) (l : List GoString) : (insertSorted x l).Perm (x :: l) := by
  induction l with
  | nil => exact .refl _
  | cons y l ih =>
    simp only [insertSorted]
    split
    · exact .refl _
    · exact (ih.cons y).trans (.swap x y l)

theorem insertSorted_ascending (x : GoString) (l : List GoString) (h : Ascending l) :
    Ascending (insertSorted x l) := by
  induction l with
  | nil => simp [insertSorted, Ascending]
  | cons y l ih =>
    unfold Ascending at h ih ⊢
    rw [List.pairwise_cons] at h
    simp only [insertSorted]
    split
    · rename_i hxy
      rw [List.pairwise_cons, List.pairwise_cons]
      refine ⟨?_, h⟩
      intro z hz
      rcases List.mem_cons.1 hz with rfl | hz
      · exact hxy
      · exact strLe_trans hxy (h.1 z hz)
    · rename_i hxy
      rw [List.pairwise_cons]
      refine ⟨?_, ih h.2⟩
      intro z hz
      rcases List.mem_cons.1 ((insertSorted_perm x l).mem_iff.1 hz) with rfl | hz
      · exact (strLe_total z y).resolve_left hxy
      · exact h.1 z hz

theorem sortStrings_perm (l : List GoString) : (sortStrings l).Perm l := by
  induction l with
  | nil => exact .refl _
  | cons x l ih => exact (insertSorted_perm x _).trans (ih.cons x)

theorem sortStrings_ascending (l : List GoString) : Ascending (sortStrings l) := by
  induction l with
  | nil => exact .nil
  | cons x l ih => exact insertSorted_ascending x _ ih

theorem ascending_unique {l l' : List GoString} (h : Ascending l) (h' : Ascending l') (p : l.Perm l') :
    l = l' := p.eq_of_pairwise (fun _ _ _ _ h1 h2 => strLe_antisymm h1 h2) h h'

/-- Any correct sorting function agrees with the one of the model. -/
theorem any_sort_agrees (sort : List GoString → List GoString)
    (h : ∀ l, (sort l).Perm l ∧ Ascending (sort l)) (l : List GoString) : sort l = sortStrings l :=
  ascending_unique (h l).2 (sortStrings_ascending l) ((h l).1.trans (sortStrings_perm l).symm)

theorem sortStrings_congr {l l' : List GoString} (p : l.Perm l') : sortStrings l = sortStrings l' :=
  ascending_unique (sortStrings_ascending l) (sortStrings_ascending l')
    ((sortStrings_perm l).trans (p.trans (sortStrings_perm l').symm))

/-! ## C12 -/

/-- The sorted duplicate-free listing of the codes in `a` but not in `b`. -/
def ListsDifference (l : List GoString) (a b : CodeSet) : Prop :=
  l.Nodup ∧ Ascending l ∧ ∀ c, c ∈ l ↔ c ∈ a ∧ c ∉ b

theorem lists_difference (od os : CodeSet → List GoString) (hd : IsOrder od) (hs : IsOrder os)
    (a b : CodeSet) : ListsDifference (sortStrings (os (CodeSet.diff (od a) b))) a b := by
  refine ⟨?_, sortStrings_ascending _, ?_⟩
  · rw [(sortStrings_perm _).nodup_iff, (hs _).nodup_iff]; exact CodeSet.nodup_diff _ _
  · intro c
    rw [(sortStrings_perm _).mem_iff, (hs _).mem_iff, CodeSet.mem_diff, (hd a).mem_iff]

theorem listsDifference_unique {l l' : List GoString} {a b a' b' : CodeSet} (h : ListsDifference l a b)
    (h' : ListsDifference l' a' b') (ha : ∀ c, c ∈ a ↔ c ∈ a') (hb : ∀ c, c ∈ b ↔ c ∈ b') : l = l' := by
  refine ascending_unique h.2.1 h'.2.1 ?_
  rw [List.perm_ext_iff_of_nodup h.1 h'.1]
  intro c; rw [h.2.2, h'.2.2, ha, hb]

/-- The text of a report listing `missing` and `unused`. -/
def mismatchText (missing unused : List GoString) : GoString :=
  join b!" " ((if missing = [] then [] else [b!"missing codes: " ++ sliceText missing]) ++
    (if unused = [] then [] else [b!"unused codes: " ++ sliceText unused]))

/-- **C12.** The check succeeds iff the found and declared sets are equal, and the message lists
exactly found-minus-declared as missing and declared-minus-found as unused. -/
theorem mismatch_exact (o : MatchOrders) (ho : AllOrders o) (found claimed : CodeSet) :
    ((checkIfErrorCodesMatch o found claimed).1 = true ↔ ∀ c, c ∈ found ↔ c ∈ claimed) ∧
    ∃ missing unused, ListsDifference missing found claimed ∧ ListsDifference unused claimed found ∧
      (checkIfErrorCodesMatch o found claimed).2 = mismatchText missing unused := by
  obtain ⟨h1, h2, h3, h4⟩ := ho
  have lm := lists_difference o.diff₁ o.slice₁ h1 h2 found claimed
  have lu := lists_difference o.diff₂ o.slice₂ h3 h4 claimed found
  have len : ∀ l : List GoString, (sortStrings l).length = l.length := fun l => (sortStrings_perm l).length_eq
  have hm := len (o.slice₁ (CodeSet.diff (o.diff₁ found) claimed))
  have hu := len (o.slice₂ (CodeSet.diff (o.diff₂ claimed) found))
  have key : ∀ l : List GoString, ((sortStrings l) = [] ↔ ¬ l.length > 0) := by
    intro l
    rw [← List.length_eq_zero_iff, len]; omega
  constructor
  · have e : (checkIfErrorCodesMatch o found claimed).1 = true ↔
        sortStrings (o.slice₁ (CodeSet.diff (o.diff₁ found) claimed)) = [] ∧
        sortStrings (o.slice₂ (CodeSet.diff (o.diff₂ claimed) found)) = [] := by
      rw [key, key]
      unfold checkIfErrorCodesMatch
      dsimp only
      split <;> split <;> simp_all
    rw [e]
    constructor
    · rintro ⟨e1, e2⟩ c
      rw [e1] at lm; rw [e2] at lu
      have a := lm.2.2 c
      have b := lu.2.2 c
      simp only [List.not_mem_nil, false_iff, not_and, Classical.not_not] at a b
      exact ⟨a, b⟩
    · intro h
      constructor
      · rw [List.eq_nil_iff_forall_not_mem]; intro c hc
        have := (lm.2.2 c).1 hc; exact this.2 ((h c).1 this.1)
      · rw [List.eq_nil_iff_forall_not_mem]; intro c hc
        have := (lu.2.2 c).1 hc; exact this.2 ((h c).2 this.1)
  · refine ⟨_, _, lm, lu, ?_⟩
    unfold checkIfErrorCodesMatch mismatchText
    dsimp only
    congr 2
    · by_cases h : (o.slice₁ (CodeSet.diff (o.diff₁ found) claimed)).length > 0
      · rw [if_pos h, if_neg (by rw [key]; exact fun c => c h)]
      · rw [if_neg h, if_pos (by rw [key]; exact h)]
    · by_cases h : (o.slice₂ (CodeSet.diff (o.diff₂ claimed) found)).length > 0
      · rw [if_pos h, if_neg (by rw [key]; exact fun c => c h)]
      · rw [if_neg h, if_pos (by rw [key]; exact h)]

-- Non-vacuity, with reversing iteration orders.
example : AllOrders ⟨List.reverse, id, id, List.reverse⟩ ∧
    checkIfErrorCodesMatch ⟨List.reverse, id, id, List.reverse⟩ [b!"b", b!"a", b!"c"] [b!"c", b!"z", b!"y"] =
      (false, b!"missing codes: [a b] unused codes: [y z]") :=
  ⟨⟨fun s => List.reverse_perm s, fun s => .refl s, fun s => .refl s, fun s => List.reverse_perm s⟩,
    by decide +kernel⟩

/-! ## C13 -/

/-- **C13.** Outcome and text of the mismatch check depend only on the two sets (as sets), not on any
iteration order nor on the order in which the codes were inserted. -/
theorem mismatch_deterministic (o o' : MatchOrders) (ho : AllOrders o) (ho' : AllOrders o')
    (found found' claimed claimed' : CodeSet) (hf : ∀ c, c ∈ found ↔ c ∈ found')
    (hc : ∀ c, c ∈ claimed ↔ c ∈ claimed') :
    checkIfErrorCodesMatch o found claimed = checkIfErrorCodesMatch o' found' claimed' := by
  obtain ⟨h1, m, u, hm, hu, ht⟩ := mismatch_exact o ho found claimed
  obtain ⟨h1', m', u', hm', hu', ht'⟩ := mismatch_exact o' ho' found' claimed'
  have e1 := listsDifference_unique hm hm' hf hc
  have e2 := listsDifference_unique hu hu' hc hf
  have b : (checkIfErrorCodesMatch o found claimed).1 = (checkIfErrorCodesMatch o' found' claimed').1 := by
    rw [Bool.eq_iff_iff, h1, h1']
    constructor
    · intro h c; rw [← hf, ← hc]; exact h c
    · intro h c; rw [hf, hc]; exact h c
  have t : (checkIfErrorCodesMatch o found claimed).2 = (checkIfErrorCodesMatch o' found' claimed').2 := by
    rw [ht, ht', e1, e2]
  exact Prod.ext b t

/-- **C13.** The text of an exported `ErrorCodes` fact depends only on the set. -/
theorem fact_text_deterministic (s s' : CodeSet → List GoString) (hs : IsOrder s) (hs' : IsOrder s')
    (codes codes' : CodeSet) (hn : codes.Nodup) (hn' : codes'.Nodup) (h : ∀ c, c ∈ codes ↔ c ∈ codes') :
    errorCodesText s codes = errorCodesText s' codes' := by
  have p : codes.Perm codes' := (List.perm_ext_iff_of_nodup hn hn').2 h
  unfold errorCodesText
  rw [sortStrings_congr ((hs codes).trans (p.trans (hs' codes').symm))]

/-- **C13.** The text of an exported `ErrorInterface` fact depends only on the set of methods. -/
theorem interface_text_deterministic (s s' : CodeSet → List GoString) (hs : IsOrder s) (hs' : IsOrder s')
    (ms ms' : CodeSet) (hn : ms.Nodup) (hn' : ms'.Nodup) (h : ∀ c, c ∈ ms ↔ c ∈ ms') :
    errorInterfaceText s ms = errorInterfaceText s' ms' := by
  have p : ms.Perm ms' := (List.perm_ext_iff_of_nodup hn hn').2 h
  unfold errorInterfaceText
  rw [sortStrings_congr ((hs ms).trans (p.trans (hs' ms').symm))]

/-- **C13.** The list in an interface report depends only on the sets. -/
theorem interface_report_deterministic (d s d' s' : CodeSet → List GoString) (hd : IsOrder d) (hs : IsOrder s)
    (hd' : IsOrder d') (hs' : IsOrder s') (f f' i i' : CodeSet) (hf : ∀ c, c ∈ f ↔ c ∈ f')
    (hi : ∀ c, c ∈ i ↔ c ∈ i') : unexpectedCodes d s f i = unexpectedCodes d' s' f' i' := by
  have e := listsDifference_unique (lists_difference d s hd hs f i) (lists_difference d' s' hd' hs' f' i') hf hi
  have len : ∀ (d s : CodeSet → List GoString) (f i : CodeSet), IsOrder s →
      (sortStrings (s (CodeSet.diff (d f) i))).length = (CodeSet.diff (d f) i).length :=
    fun d s f i hs => ((sortStrings_perm _).trans (hs _)).length_eq
  have l : (CodeSet.diff (d f) i).length = (CodeSet.diff (d' f') i').length := by
    rw [← len d s f i hs, ← len d' s' f' i' hs', e]
  unfold unexpectedCodes
  dsimp only
  rw [l, e]

example : errorCodesText List.reverse [b!"b", b!"a"] = b!"ErrorCodes: a b" := by decide +kernel

end Serum.Props.Reports
