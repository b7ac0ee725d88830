import Verif.GoString
/-! Helper lemmas about the string operations of `GoString`. -/

namespace Serum.GoStr

/-! ## split / join -/

theorem split_ne_nil (sep : UInt8) (s : GoString) : split sep s ≠ [] := by
  cases s with
  | nil => simp [split]
  | cons c cs =>
    unfold split
    split
    · simp
    · split <;> simp

theorem split_no_sep (sep : UInt8) (s : GoString) (h : sep ∉ s) : split sep s = [s] := by
  induction s with
  | nil => rfl
  | cons c cs ih =>
    simp only [List.mem_cons, not_or] at h
    unfold split
    rw [if_neg (fun e => h.1 e.symm), ih h.2]

theorem split_append_sep (sep : UInt8) (a b : GoString) (h : sep ∉ a) :
    split sep (a ++ sep :: b) = a :: split sep b := by
  induction a with
  | nil => simp [split]
  | cons c cs ih =>
    simp only [List.mem_cons, not_or] at h
    rw [List.cons_append]
    conv => lhs; unfold split
    rw [if_neg (fun e => h.1 e.symm), ih h.2]

theorem split_piece_no_sep (sep : UInt8) (s : GoString) : ∀ p ∈ split sep s, sep ∉ p := by
  induction s with
  | nil => simp [split]
  | cons c cs ih =>
    intro p hp
    unfold split at hp
    split at hp
    · rcases List.mem_cons.1 hp with rfl | hp
      · simp
      · exact ih p hp
    · rename_i hne
      split at hp
      · rename_i heq; exact absurd heq (split_ne_nil sep cs)
      · rename_i h t heq
        rcases List.mem_cons.1 hp with rfl | hp
        · have := ih h (by rw [heq]; simp)
          simp only [List.mem_cons, not_or]
          exact ⟨fun e => hne e.symm, this⟩
        · exact ih p (by rw [heq]; exact List.mem_cons_of_mem _ hp)

theorem split_join (sep : UInt8) (ps : List GoString) (hne : ps ≠ [])
    (h : ∀ p ∈ ps, sep ∉ p) : split sep (join [sep] ps) = ps := by
  induction ps with
  | nil => exact absurd rfl hne
  | cons p qs ih =>
    cases qs with
    | nil => simp only [join]; exact split_no_sep _ _ (h p (by simp))
    | cons q qs =>
      simp only [join, List.append_assoc, List.singleton_append]
      rw [split_append_sep _ _ _ (h p (by simp)), ih (by simp)]
      intro x hx
      exact h x (List.mem_cons_of_mem _ hx)

theorem join_split (sep : UInt8) (s : GoString) : join [sep] (split sep s) = s := by
  induction s with
  | nil => rfl
  | cons c cs ih =>
    unfold split
    split
    · rename_i h; subst h
      cases hs : split c cs with
      | nil => exact absurd hs (split_ne_nil _ _)
      | cons h t => rw [hs] at ih; simp [join, ih]
    · cases hs : split sep cs with
      | nil => exact absurd hs (split_ne_nil _ _)
      | cons h t =>
        rw [hs] at ih
        cases t with
        | nil => simpa [join] using ih
        | cons t ts => simpa [join] using ih

/-! ## prefix, index -/

theorem hasPrefix_iff (s p : GoString) : hasPrefix s p = true ↔ p <+: s := by
  simp [hasPrefix]

theorem index_some_iff (nd s : GoString) (i : Nat) :
    index nd s = some i ↔
      (i ≤ s.length ∧ nd <+: s.drop i ∧ ∀ j, j < i → ¬ nd <+: s.drop j) := by
  induction s generalizing i with
  | nil =>
    unfold index
    cases nd with
    | nil =>
      simp
      constructor
      · intro h; subst h; simp
      · intro h; exact h.1.symm
    | cons a b => simp
  | cons c cs ih =>
    unfold index
    split
    · rename_i h
      have h : nd <+: c :: cs := by simpa using h
      constructor
      · intro e
        cases e
        exact ⟨Nat.zero_le _, by simpa using h, by intro j hj; omega⟩
      · intro ⟨_, _, h3⟩
        cases i with
        | zero => rfl
        | succ i => exact absurd (by simpa using h) (h3 0 (by omega))
    · rename_i h
      have h : ¬ nd <+: c :: cs := by simpa using h
      cases i with
      | zero =>
        simp only [Option.map_eq_some_iff]
        constructor
        · rintro ⟨a, _, ha⟩; omega
        · intro ⟨_, h2, _⟩; exact absurd (by simpa using h2) h
      | succ i =>
        simp only [Option.map_eq_some_iff, Nat.add_right_cancel_iff, exists_eq_right, ih,
          List.drop_succ_cons, List.length_cons, Nat.add_le_add_iff_right]
        constructor
        · intro ⟨h1, h2, h3⟩
          refine ⟨h1, h2, ?_⟩
          intro j hj
          cases j with
          | zero => simpa using h
          | succ j => simpa using h3 j (by omega)
        · intro ⟨h1, h2, h3⟩
          refine ⟨h1, h2, ?_⟩
          intro j hj
          simpa using h3 (j + 1) (by omega)

theorem index_none_iff (nd s : GoString) :
    index nd s = none ↔ ∀ i, i ≤ s.length → ¬ nd <+: s.drop i := by
  constructor
  · intro h i hi hp
    -- take the least such position
    have : ∃ i, (i ≤ s.length ∧ nd <+: s.drop i ∧ ∀ j, j < i → ¬ nd <+: s.drop j) := by
      induction i using Nat.strongRecOn with
      | _ i ih =>
        by_cases hj : ∃ j, j < i ∧ nd <+: s.drop j
        · obtain ⟨j, hji, hjp⟩ := hj
          exact ih j hji (by omega) hjp
        · exact ⟨i, hi, hp, fun j hji hjp => hj ⟨j, hji, hjp⟩⟩
    obtain ⟨k, hk⟩ := this
    rw [← index_some_iff] at hk
    rw [h] at hk; cases hk
  · intro h
    cases hi : index nd s with
    | none => rfl
    | some i =>
      rw [index_some_iff] at hi
      exact absurd hi.2.1 (h i hi.1)

theorem index_le (nd s : GoString) (i : Nat) (h : index nd s = some i) : i + nd.length ≤ s.length := by
  rw [index_some_iff] at h
  have := h.2.1.length_le
  simp at this
  omega

/-! ## trimming -/

/-- What the trimming loops need to know about an encoding table: non-empty words, prefix free. -/
structure PTable (encs : List GoString) : Prop where
  nonempty : ∀ e ∈ encs, e ≠ []
  prefixFree : ∀ e ∈ encs, ∀ f ∈ encs, e <+: f → e = f

/-- Additionally, first bytes never occur later in a word. -/
structure Table (encs : List GoString) : Prop extends PTable encs where
  sync : ∀ e ∈ encs, ∀ f ∈ encs, ∀ a l, f = a :: l → a ∉ e.drop 1

theorem stripOne_some {encs : List GoString} {s t : GoString} (h : stripOne encs s = some t) :
    ∃ e ∈ encs, s = e ++ t := by
  induction encs with
  | nil => simp [stripOne] at h
  | cons e es ih =>
    unfold stripOne at h
    split at h
    · rename_i hp
      have hp : e <+: s := by simpa using hp
      obtain ⟨r, rfl⟩ := hp
      simp at h
      exact ⟨e, by simp, by rw [h]⟩
    · obtain ⟨f, hf, he⟩ := ih h
      exact ⟨f, List.mem_cons_of_mem _ hf, he⟩

theorem stripOne_none {encs : List GoString} {s : GoString} :
    stripOne encs s = none ↔ ∀ e ∈ encs, ¬ e <+: s := by
  induction encs with
  | nil => simp [stripOne]
  | cons e es ih =>
    unfold stripOne
    split
    · rename_i hp
      have hp : e <+: s := by simpa using hp
      simp [hp]
    · rename_i hp
      have hp : ¬ e <+: s := by simpa using hp
      simp [ih, hp]

theorem stripOne_append {encs : List GoString} (T : PTable encs) {e t : GoString} (he : e ∈ encs) :
    stripOne encs (e ++ t) = some t := by
  cases h : stripOne encs (e ++ t) with
  | none =>
    rw [stripOne_none] at h
    exact absurd (List.prefix_append _ _) (h e he)
  | some u =>
    obtain ⟨f, hf, heq⟩ := stripOne_some h
    have : e = f := by
      rcases Nat.le_total e.length f.length with hl | hl
      · exact T.prefixFree e he f hf (by
          have : e <+: f ++ u := ⟨t, heq⟩
          exact (List.prefix_append_right_inj (l := [])).1 (by simpa using List.prefix_of_prefix_length_le this (List.prefix_append _ _) hl))
      · exact (T.prefixFree f hf e he (by
          have : f <+: e ++ t := ⟨u, heq.symm⟩
          exact List.prefix_of_prefix_length_le this (List.prefix_append _ _) hl)).symm
    subst this
    simp at heq
    rw [heq]

theorem stripAll_fuel {encs : List GoString} (T : PTable encs) :
    ∀ (n : Nat) (s : GoString), s.length ≤ n → stripAll encs n s = stripAll encs s.length s := by
  suffices ∀ (m n : Nat) (s : GoString), s.length ≤ m → s.length ≤ n →
      stripAll encs n s = stripAll encs m s by
    intro n s h; exact this _ _ _ (Nat.le_refl _) h
  intro m
  induction m with
  | zero =>
    intro n s hm _
    have : s = [] := by cases s <;> simp_all
    subst this
    have hno : stripOne encs [] = none := by
      rw [stripOne_none]
      intro e he hp
      exact T.nonempty e he (List.prefix_nil.1 hp)
    cases n with
    | zero => rfl
    | succ n => simp [stripAll, hno]
  | succ m ih =>
    intro n s hm hn
    cases n with
    | zero =>
      have : s = [] := by cases s <;> simp_all
      subst this
      have hno : stripOne encs [] = none := by
        rw [stripOne_none]
        intro e he hp
        exact T.nonempty e he (List.prefix_nil.1 hp)
      simp [stripAll, hno]
    | succ n =>
      simp only [stripAll]
      cases h : stripOne encs s with
      | none => rfl
      | some t =>
        obtain ⟨e, he, rfl⟩ := stripOne_some h
        have : 0 < e.length := List.length_pos_iff.2 (T.nonempty e he)
        simp at hm hn
        exact ih n t (by omega) (by omega)

/-- `lead encs s`: the fully stripped string. -/
def lead (encs : List GoString) (s : GoString) : GoString := stripAll encs s.length s

theorem lead_append {encs : List GoString} (T : PTable encs) {e : GoString} (he : e ∈ encs)
    (t : GoString) : lead encs (e ++ t) = lead encs t := by
  have hpos : 0 < e.length := List.length_pos_iff.2 (T.nonempty e he)
  unfold lead
  obtain ⟨k, hk⟩ : ∃ k, (e ++ t).length = k + 1 := ⟨(e ++ t).length - 1, by simp; omega⟩
  rw [hk]
  simp only [stripAll, stripOne_append T he]
  exact stripAll_fuel T k t (by simp at hk; omega)

theorem lead_none {encs : List GoString} {s : GoString} (h : stripOne encs s = none) :
    lead encs s = s := by
  unfold lead
  cases s.length with
  | zero => rfl
  | succ n => simp [stripAll, h]

/-- The stripped string has no white space word in front. -/
theorem lead_clean {encs : List GoString} (T : PTable encs) (s : GoString) :
    stripOne encs (lead encs s) = none := by
  generalize hn : s.length = n
  induction n using Nat.strongRecOn generalizing s with
  | _ n ih =>
    cases h : stripOne encs s with
    | none => rw [lead_none h]; exact h
    | some t =>
      obtain ⟨e, he, rfl⟩ := stripOne_some h
      have hpos : 0 < e.length := List.length_pos_iff.2 (T.nonempty e he)
      rw [lead_append T he]
      exact ih t.length (by simp at hn; omega) t rfl

theorem lead_idem {encs : List GoString} (T : PTable encs) (s : GoString) :
    lead encs (lead encs s) = lead encs s := lead_none (lead_clean T s)

/-- Sequences of white space words. -/
inductive Blank (encs : List GoString) : GoString → Prop
  | nil : Blank encs []
  | cons {e w} : e ∈ encs → Blank encs w → Blank encs (e ++ w)

theorem lead_decomp {encs : List GoString} (T : PTable encs) (s : GoString) :
    ∃ w, Blank encs w ∧ s = w ++ lead encs s := by
  generalize hn : s.length = n
  induction n using Nat.strongRecOn generalizing s with
  | _ n ih =>
    cases h : stripOne encs s with
    | none => exact ⟨[], .nil, by rw [lead_none h]; rfl⟩
    | some t =>
      obtain ⟨e, he, rfl⟩ := stripOne_some h
      have hpos : 0 < e.length := List.length_pos_iff.2 (T.nonempty e he)
      obtain ⟨w, hw, heq⟩ := ih t.length (by simp at hn; omega) t rfl
      refine ⟨e ++ w, .cons he hw, ?_⟩
      rw [lead_append T he, List.append_assoc, ← heq]

theorem lead_blank_append {encs : List GoString} (T : PTable encs) {w : GoString}
    (hw : Blank encs w) (t : GoString) : lead encs (w ++ t) = lead encs t := by
  induction hw with
  | nil => rfl
  | cons he _ ih => rw [List.append_assoc, lead_append T he, ih]

/-- A string that starts with a blank word cannot complete a partial word before it. -/
theorem prefix_append_blank {encs : List GoString} (T : Table encs) {e s w : GoString}
    (he : e ∈ encs) (hw : Blank encs w) (hs : s ≠ []) (h : e <+: s ++ w) : e <+: s := by
  rcases Nat.lt_or_ge s.length e.length with hl | hl
  · exfalso
    have h2 : s <+: e := List.prefix_of_prefix_length_le (List.prefix_append s w) h (Nat.le_of_lt hl)
    obtain ⟨r, rfl⟩ := h2
    cases hw with
    | nil =>
      have := h.length_le
      simp at this hl
      omega
    | @cons f w hf hw =>
      cases r with
      | nil => simp at hl
      | cons a r =>
        have h3 : a :: r <+: f ++ w := (List.prefix_append_right_inj s).1 h
        cases f with
        | nil => exact T.nonempty [] hf rfl
        | cons b f =>
          rw [List.cons_append, List.cons_prefix_cons] at h3
          obtain ⟨rfl, _⟩ := h3
          apply T.sync _ he _ hf a f rfl
          cases s with
          | nil => exact absurd rfl hs
          | cons x s => simp
  · exact List.prefix_of_prefix_length_le h (List.prefix_append s w) hl

/-- Trailing blanks stay when the front is stripped, unless everything is blank. -/
theorem lead_append_blank {encs : List GoString} (T : Table encs) {w : GoString}
    (hw : Blank encs w) (s : GoString) :
    (lead encs s = [] ∧ lead encs (s ++ w) = []) ∨
    (lead encs s ≠ [] ∧ lead encs (s ++ w) = lead encs s ++ w) := by
  obtain ⟨v, hv, hs⟩ := lead_decomp T.toPTable s
  have h1 : lead encs (s ++ w) = lead encs (lead encs s ++ w) := by
    conv => lhs; rw [hs, List.append_assoc, lead_blank_append T.toPTable hv]
  by_cases hne : lead encs s = []
  · left
    refine ⟨hne, ?_⟩
    rw [h1, hne, List.nil_append]
    have := lead_blank_append T.toPTable hw []
    simp at this
    rw [this]; rfl
  · right
    refine ⟨hne, ?_⟩
    rw [h1]
    apply lead_none
    rw [stripOne_none]
    intro e he hp
    have := prefix_append_blank T he hw hne hp
    exact (stripOne_none.1 (lead_clean T.toPTable s)) e he this

theorem table_spaces : Table spaceEncs := by
  refine ⟨⟨by decide, by decide⟩, ?_⟩
  have : ∀ e ∈ spaceEncs, ∀ f ∈ spaceEncs, f.head? ∉ (e.drop 1).map some := by decide
  intro e he f hf a l h ha
  apply this e he f hf
  subst h
  simp only [List.head?_cons, List.mem_map]
  exact ⟨a, ha, rfl⟩


theorem ptable_rev : PTable (spaceEncs.map List.reverse) := ⟨by decide, by decide⟩

/-- White space as the analyzer sees it: a sequence of Unicode white space characters. -/
abbrev IsBlank (w : GoString) : Prop := Blank spaceEncs w

theorem blank_append {encs : List GoString} {v w : GoString} (hv : Blank encs v) (hw : Blank encs w) :
    Blank encs (v ++ w) := by
  induction hv with
  | nil => exact hw
  | cons he _ ih => rw [List.append_assoc]; exact .cons he ih

theorem blank_reverse {encs : List GoString} {w : GoString} (hw : Blank encs w) :
    Blank (encs.map List.reverse) w.reverse := by
  induction hw with
  | nil => exact .nil
  | @cons e w he _ ih =>
    rw [List.reverse_append]
    refine blank_append ih ?_
    have := Blank.cons (encs := encs.map List.reverse) (e := e.reverse) (w := [])
      (List.mem_map_of_mem he) .nil
    simpa using this

theorem blank_of_reverse {w : GoString} (hw : Blank (spaceEncs.map List.reverse) w) :
    IsBlank w.reverse := by
  have := blank_reverse hw
  rw [List.map_map] at this
  simpa [Function.comp_def] using this

theorem trimLeft_eq (s : GoString) : trimLeft s = lead spaceEncs s := rfl

theorem trimRight_eq (s : GoString) :
    trimRight s = (lead (spaceEncs.map List.reverse) s.reverse).reverse := by
  simp [trimRight, lead]

theorem trimLeft_decomp (s : GoString) : ∃ w, IsBlank w ∧ s = w ++ trimLeft s :=
  lead_decomp table_spaces.toPTable s

theorem trimRight_decomp (s : GoString) : ∃ w, IsBlank w ∧ s = trimRight s ++ w := by
  obtain ⟨w, hw, h⟩ := lead_decomp ptable_rev s.reverse
  refine ⟨w.reverse, blank_of_reverse hw, ?_⟩
  rw [trimRight_eq, ← List.reverse_append, ← h, List.reverse_reverse]

/-- `TrimSpace` removes blanks at both ends and nothing else. -/
theorem trimSpace_decomp (s : GoString) :
    ∃ v w, IsBlank v ∧ IsBlank w ∧ s = v ++ trimSpace s ++ w := by
  obtain ⟨v, hv, h1⟩ := trimLeft_decomp s
  obtain ⟨w, hw, h2⟩ := trimRight_decomp (trimLeft s)
  refine ⟨v, w, hv, hw, ?_⟩
  conv => lhs; rw [h1, h2]
  simp [trimSpace]

theorem trimRight_append_blank {w : GoString} (hw : IsBlank w) (s : GoString) :
    trimRight (s ++ w) = trimRight s := by
  rw [trimRight_eq, trimRight_eq, List.reverse_append, lead_blank_append ptable_rev (blank_reverse hw)]

theorem trimRight_blank {w : GoString} (hw : IsBlank w) : trimRight w = [] := by
  have := trimRight_append_blank hw []
  rw [List.nil_append] at this
  rw [this]; rfl

/-- Padding with white space on either side is invisible after `TrimSpace`. -/
theorem trimSpace_pad {v w : GoString} (hv : IsBlank v) (hw : IsBlank w) (s : GoString) :
    trimSpace (v ++ s ++ w) = trimSpace s := by
  unfold trimSpace
  rw [trimLeft_eq, List.append_assoc, lead_blank_append table_spaces.toPTable hv]
  rcases lead_append_blank table_spaces hw s with ⟨h1, h2⟩ | ⟨_, h2⟩
  · rw [h2, trimLeft_eq, h1]
  · rw [h2, trimRight_append_blank hw, trimLeft_eq]

/-- Neither end of a trimmed string is white space. -/
def Trimmed (s : GoString) : Prop := ∀ e ∈ spaceEncs, ¬ e <+: s ∧ ¬ e <:+ s

theorem trimmed_trimSpace (s : GoString) : Trimmed (trimSpace s) := by
  intro e he
  constructor
  · intro hp
    obtain ⟨w, hw, h2⟩ := trimRight_decomp (trimLeft s)
    have : e <+: trimLeft s := by
      rw [h2]; exact hp.trans (List.prefix_append _ _)
    exact stripOne_none.1 (lead_clean table_spaces.toPTable s) e he this
  · intro hs
    have := stripOne_none.1 (lead_clean ptable_rev (trimLeft s).reverse) e.reverse
      (List.mem_map_of_mem he)
    apply this
    rw [← List.reverse_suffix, List.reverse_reverse, ← trimRight_eq]
    exact hs

theorem trimSpace_of_trimmed {s : GoString} (h : Trimmed s) : trimSpace s = s := by
  have h1 : trimLeft s = s := lead_none (stripOne_none.2 fun e he => (h e he).1)
  unfold trimSpace
  rw [h1, trimRight_eq]
  have : stripOne (spaceEncs.map List.reverse) s.reverse = none := by
    rw [stripOne_none]
    intro e he hp
    obtain ⟨f, hf, rfl⟩ := List.mem_map.1 he
    exact (h f hf).2 (List.reverse_prefix.1 hp)
  rw [lead_none this, List.reverse_reverse]

theorem trimSpace_idem (s : GoString) : trimSpace (trimSpace s) = trimSpace s :=
  trimSpace_of_trimmed (trimmed_trimSpace s)

theorem trimSpace_eq_iff (s t : GoString) :
    trimSpace s = t ↔ Trimmed t ∧ ∃ v w, IsBlank v ∧ IsBlank w ∧ s = v ++ t ++ w := by
  constructor
  · rintro rfl; exact ⟨trimmed_trimSpace s, trimSpace_decomp s⟩
  · rintro ⟨ht, v, w, hv, hw, rfl⟩
    rw [trimSpace_pad hv hw, trimSpace_of_trimmed ht]

/-- A string whose first and last bytes are visible ASCII is trimmed. -/
theorem trimmed_of_ends {s : GoString}
    (hf : ∀ b, s.head? = some b → 33 ≤ b ∧ b < 127) (hl : ∀ b, s.getLast? = some b → 33 ≤ b ∧ b < 127) :
    Trimmed s := by
  intro e he
  constructor
  · rintro ⟨r, rfl⟩
    have : ∀ e ∈ spaceEncs, ∃ b, e.head? = some b ∧ ¬ (33 ≤ b ∧ b < 127) := by decide
    obtain ⟨b, hb, hn⟩ := this e he
    exact hn (hf b (by rw [List.head?_append, hb]; rfl))
  · rintro ⟨r, rfl⟩
    have : ∀ e ∈ spaceEncs, ∃ b, e.getLast? = some b ∧ ¬ (33 ≤ b ∧ b < 127) := by decide
    obtain ⟨b, hb, hn⟩ := this e he
    exact hn (hl b (by rw [List.getLast?_append, hb]; rfl))

theorem trimmed_nil : Trimmed [] := by
  intro e he
  have := table_spaces.nonempty e he
  simp [this]

theorem blank_nil : IsBlank [] := .nil

/-- A blank string trims to the empty string, and conversely. -/
theorem trimSpace_nil_iff (s : GoString) : trimSpace s = [] ↔ IsBlank s := by
  rw [trimSpace_eq_iff]
  constructor
  · rintro ⟨_, v, w, hv, hw, rfl⟩; simpa using blank_append hv hw
  · intro h; exact ⟨trimmed_nil, s, [], h, .nil, by simp⟩

end Serum.GoStr
