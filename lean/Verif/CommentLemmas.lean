import Verif.Comments
import Verif.Spec.CommentSpec
import Verif.DocWriter

/-! # Lemmas about comment texts -/

namespace Serum.CommentText
open Serum GoStr CommentSpec DocGrammar

theorem isWhitespace_iff (b : UInt8) : isWhitespace b = true ↔ b = 32 ∨ b = 9 ∨ b = 10 ∨ b = 13 := by
  simp [isWhitespace, or_assoc]

theorem stripTrailing_decomp (s : GoString) :
    ∃ w, Vacant w ∧ s = stripTrailing s ++ w := by
  refine ⟨(s.reverse.takeWhile isWhitespace).reverse, ?_, ?_⟩
  · intro b hb
    have hb := List.mem_reverse.1 hb
    have : ∀ (l : List UInt8), ∀ b ∈ l.takeWhile isWhitespace, isWhitespace b = true := by
      intro l b hb
      have := List.all_takeWhile (p := isWhitespace) (l := l)
      exact List.all_eq_true.1 this b hb
    exact (isWhitespace_iff b).1 (this _ b hb)
  · unfold stripTrailing
    rw [← List.reverse_append, List.takeWhile_append_dropWhile, List.reverse_reverse]

theorem stripTrailing_nil_iff (s : GoString) : stripTrailing s = [] ↔ Vacant s := by
  constructor
  · intro h
    obtain ⟨w, hw, e⟩ := stripTrailing_decomp s
    rw [h, List.nil_append] at e
    rw [e]; exact hw
  · intro h
    unfold stripTrailing
    rw [List.reverse_eq_nil_iff]
    have all : ∀ l : List UInt8, (∀ b ∈ l, isWhitespace b = true) → l.dropWhile isWhitespace = [] := by
      intro l hl
      induction l with
      | nil => rfl
      | cons b l ih => rw [List.dropWhile_cons_of_pos (hl b (by simp))]; exact ih fun x hx => hl x (by simp [hx])
    refine all _ ?_
    intro b hb
    exact (isWhitespace_iff b).2 (h b (List.mem_reverse.1 hb))

theorem empty_blank {w : GoString} (h : Vacant w) : IsBlank w := by
  induction w with
  | nil => exact .nil
  | cons b w ih =>
    refine Blank.cons (e := [b]) ?_ (ih fun x hx => h x (by simp [hx]))
    rcases h b (by simp) with rfl | rfl | rfl | rfl <;> decide

theorem trimSpace_empty {w : GoString} (h : Vacant w) : trimSpace w = [] := (trimSpace_nil_iff w).2 (empty_blank h)

theorem trimSpace_stripTrailing (s : GoString) : trimSpace (stripTrailing s) = trimSpace s := by
  obtain ⟨w, hw, e⟩ := stripTrailing_decomp s
  have := trimSpace_pad blank_nil (empty_blank hw) (stripTrailing s)
  rw [List.nil_append, ← e] at this
  exact this.symm

/-- What matters of a line: its trimmed text and whether it is empty. -/
def key (l : GoString) : GoString × Bool := (trimSpace l, decide (Vacant l))

/-- The same for a line from which trailing white space was stripped. -/
def key' (l : GoString) : GoString × Bool := (trimSpace l, decide (l = []))

theorem key'_strip (l : GoString) : key' (stripTrailing l) = key l := by
  unfold key' key
  rw [trimSpace_stripTrailing]
  simp [stripTrailing_nil_iff]

theorem key_space (l : GoString) : key (32 :: l) = key l := by
  unfold key
  rw [trimSpace_space_cons]
  have : Vacant (32 :: l) ↔ Vacant l := by simp [CommentSpec.Vacant]
  simp [this]

theorem lowerAlnum_iff (b : UInt8) : isLowerAlnum b = true ↔ LowerAlnum b := by
  simp [isLowerAlnum, LowerAlnum]

theorem index_colon {c : GoString} {k : Nat} (h : index b!":" c = some k) :
    ∃ w r, c = w ++ 58 :: r ∧ w.length = k ∧ (58 : UInt8) ∉ w := by
  obtain ⟨_, h1, h2⟩ := (index_some_iff _ _ _).1 h
  obtain ⟨r, hr⟩ := h1
  refine ⟨c.take k, r, ?_, ?_, ?_⟩
  · conv => lhs; rw [← List.take_append_drop k c]
    rw [← hr]; rfl
  · have := index_le _ _ _ h
    simp at this
    simp; omega
  · intro hm
    obtain ⟨i, hi, e⟩ := List.mem_iff_getElem.1 hm
    have hi' : i < k ∧ i < c.length := by rw [List.length_take] at hi; exact Nat.lt_min.1 hi
    apply h2 i hi'.1
    refine ⟨c.drop (i + 1), ?_⟩
    rw [List.getElem_take] at e
    rw [List.drop_eq_getElem_cons hi'.2, e]; rfl

theorem isDirective_iff (t : GoString) : isDirective t = true ↔ Directive t := by
  unfold isDirective Directive
  by_cases hp : (hasPrefix t b!"line " || hasPrefix t b!"extern " || hasPrefix t b!"export ") = true
  · rw [if_pos hp]
    simp only [true_iff]
    left
    simp only [Bool.or_eq_true, hasPrefix_iff] at hp
    rcases hp with (⟨r, hr⟩ | ⟨r, hr⟩) | ⟨r, hr⟩
    · exact ⟨r, .inl hr.symm⟩
    · exact ⟨r, .inr (.inl hr.symm)⟩
    · exact ⟨r, .inr (.inr hr.symm)⟩
  · rw [if_neg hp]
    have no : ¬ ∃ r, t = b!"line " ++ r ∨ t = b!"extern " ++ r ∨ t = b!"export " ++ r := by
      rintro ⟨r, h⟩
      apply hp
      simp only [Bool.or_eq_true, hasPrefix_iff]
      rcases h with h | h | h
      · exact .inl (.inl ⟨r, h.symm⟩)
      · exact .inl (.inr ⟨r, h.symm⟩)
      · exact .inr ⟨r, h.symm⟩
    have colonFree : ∀ {w : GoString}, (∀ x ∈ w, LowerAlnum x) → (58 : UInt8) ∉ w := by
      intro w hw hm
      have := hw _ hm
      simp only [LowerAlnum] at this
      revert this; decide
    cases hi : index b!":" t with
    | none =>
      simp only [Bool.false_eq_true, false_iff, not_or]
      refine ⟨no, ?_⟩
      rintro ⟨w, b, r, _, _, _, rfl⟩
      have h2 := (index_none_iff _ _).1 hi
      have := h2 w.length
      simp at this
    | some k =>
      obtain ⟨w, r, rfl, rfl, hw⟩ := index_colon hi
      dsimp only
      constructor
      · intro h
        right
        by_cases hc : (decide (w.length = 0) || decide (w.length + 1 ≥ (w ++ 58 :: r).length)) = true
        · rw [if_pos hc] at h; cases h
        · rw [if_neg hc] at h
          simp only [Bool.or_eq_true, decide_eq_true_eq, not_or, List.length_eq_zero_iff] at hc
          cases r with
          | nil => simp at hc
          | cons b r =>
            rw [List.drop_append, List.drop_of_length_le (by omega)] at h
            simp at h
            refine ⟨w, b, r, hc.1, fun x hx => (lowerAlnum_iff x).1 (h.1 x hx), (lowerAlnum_iff b).1 h.2, by simp⟩
      · rintro (h | ⟨w', b, r', hne, hal, hb, e⟩)
        · exact absurd h no
        · have e' : w = w' ∧ r = b :: r' := by
            have := colonFree hal
            rw [List.append_assoc] at e
            rcases List.append_eq_append_iff.1 e with ⟨a, h1, h2⟩ | ⟨a, h1, h2⟩
            · cases a with
              | nil => simp at h1 h2; exact ⟨h1.symm, h2⟩
              | cons x a =>
                simp at h2
                exact absurd (by rw [h1]; simp [h2.1]) this
            · cases a with
              | nil => simp at h1 h2; exact ⟨h1, h2.symm⟩
              | cons x a =>
                simp at h2
                exact absurd (by rw [h1]; simp [← h2.1]) hw
          obtain ⟨rfl, rfl⟩ := e'
          have hn : ¬ (decide (w.length = 0) || decide (w.length + 1 ≥ (w ++ 58 :: b :: r').length)) = true := by
            simp [hne]
          rw [if_neg hn, List.drop_append, List.drop_of_length_le (by omega)]
          simp
          exact ⟨fun x hx => (lowerAlnum_iff x).2 (hal x hx), (lowerAlnum_iff b).2 hb⟩

theorem not_directive_space (t : GoString) : ¬ Directive (32 :: t) := by
  rintro (⟨r, h | h | h⟩ | ⟨w, b, r, hw, hal, _, e⟩)
  · simp at h
  · simp at h
  · simp at h
  · cases w with
    | nil => exact hw rfl
    | cons x w =>
      simp at e
      have := hal x (by simp)
      rw [← e.1] at this
      simp only [LowerAlnum] at this
      revert this; decide

/-- The lines of a single comment. -/
theorem commentLines_key (c : Comment) (h : c.Ok) : (commentLines c.source).map key' = c.lines.map key := by
  cases c with
  | line body =>
    simp only [Comment.source, List.cons_append, List.nil_append, commentLines, Comment.lines]
    have strip : ∀ l : GoString, (10 : UInt8) ∉ l → ((split 10 l).map stripTrailing).map key' = [key l] := by
      intro l hl
      rw [split_no_sep 10 l hl]
      simp [key'_strip]
    cases body with
    | nil =>
      rw [if_neg]
      · simpa using strip [] (by simp)
      · rintro (⟨r, h | h | h⟩ | ⟨w, b, r, _, _, _, e⟩)
        · simp at h
        · simp at h
        · simp at h
        · simp at e
    | cons x body =>
      simp only [Comment.Ok] at h
      by_cases hx : x = 32
      · subst hx
        rw [if_neg (not_directive_space body)]
        have := strip body (by simpa using h)
        simpa [key_space] using this
      · split
        · rename_i e; cases e
        · rename_i e; injection e with e _; exact absurd e hx
        · by_cases hd : isDirective (x :: body) = true
          · rw [if_pos hd, if_pos ((isDirective_iff _).1 hd)]; rfl
          · rw [if_neg hd, if_neg (mt (isDirective_iff _).2 hd), strip _ h]; rfl
  | block body =>
    simp only [Comment.source, List.cons_append, List.nil_append, commentLines, Comment.lines]
    have : (body ++ [42, 47]).take ((body ++ [42, 47]).length - 2) = body := by simp
    rw [this]
    simp [key'_strip]

theorem group_key (g : List Comment) (h : ∀ c ∈ g, c.Ok) :
    ((g.map Comment.source).flatMap commentLines).map key' = (linesOf g).map key := by
  induction g with
  | nil => rfl
  | cons c g ih =>
    simp only [List.map_cons, List.flatMap_cons, List.map_append, linesOf]
    rw [commentLines_key c (h c (by simp)), ih fun c hc => h c (by simp [hc])]
    rfl

/-- Compaction on keys. `prev`: the line before is kept and not blank. -/
def sq (prev : Bool) : List (GoString × Bool) → List GoString
  | [] => []
  | (t, e) :: ks =>
    if e then (if prev then [] :: sq false ks else sq false ks) else t :: sq true ks

def open_ (kept : List GoString) : Bool := decide (kept.length > 0 ∧ kept.getLast? ≠ some [])

theorem open_snoc (kept : List GoString) (l : GoString) : open_ (kept ++ [l]) = decide (l ≠ []) := by
  simp [open_]

theorem compact_sq (kept ms : List GoString) :
    (compactLoop kept ms).map trimSpace = kept.map trimSpace ++ sq (open_ kept) (ms.map key') := by
  induction ms generalizing kept with
  | nil => simp [compactLoop, sq]
  | cons l ms ih =>
    simp only [compactLoop, List.map_cons, sq, key']
    by_cases hl : l = []
    · subst hl
      by_cases ho : open_ kept = true
      · rw [if_pos (.inr (by simpa [open_] using ho)), ih, open_snoc, ho]
        simp [show trimSpace [] = [] from rfl]
      · have ho' : open_ kept = false := by simpa using ho
        rw [if_neg, ih, ho']
        · rfl
        · rintro (h | h)
          · exact h rfl
          · exact ho (by simpa [open_] using h)
    · rw [if_pos (.inl hl), ih, open_snoc]
      simp [hl]

theorem single_sq (ls : List GoString) : (single ls).map trimSpace = sq true (ls.map key) := by
  match ls with
  | [] => rfl
  | [l] =>
    by_cases h : Vacant l
    · simp [single, sq, key, h, trimSpace_empty h]
    · simp [single, sq, key, h]
  | a :: b :: ls =>
    have ih := single_sq (b :: ls)
    unfold single
    by_cases ha : Vacant a
    · by_cases hb : Vacant b
      · rw [if_pos ⟨ha, hb⟩, ih]
        simp [sq, key, ha, hb]
      · rw [if_neg (fun h => hb h.2), List.map_cons, ih]
        simp [sq, key, ha, hb, trimSpace_empty ha]
    · rw [if_neg (fun h => ha h.1), List.map_cons, ih]
      simp [sq, key, ha]

theorem collapse_sq (ls : List GoString) : (collapse ls).map trimSpace = sq false (ls.map key) := by
  unfold collapse
  induction ls with
  | nil => rfl
  | cons l ls ih =>
    by_cases h : Vacant l
    · rw [List.dropWhile_cons_of_pos (by simpa using h), ih]
      simp [sq, key, h]
    · rw [List.dropWhile_cons_of_neg (by simpa using h), single_sq]
      simp [sq, key, h]

theorem compact_reading (g : List Comment) (h : ∀ c ∈ g, c.Ok) :
    (compactLoop [] ((g.map Comment.source).flatMap commentLines)).map trimSpace = reading g := by
  rw [compact_sq, group_key g h]
  unfold reading
  rw [collapse_sq]; rfl

theorem commentLines_no_newline (c : GoString) : ∀ l ∈ commentLines c, (10 : UInt8) ∉ l := by
  have : ∀ s : GoString, ∀ l ∈ (split 10 s).map stripTrailing, (10 : UInt8) ∉ l := by
    intro s l hl
    obtain ⟨x, hx, rfl⟩ := List.mem_map.1 hl
    have := split_piece_no_sep 10 s x hx
    obtain ⟨w, _, e⟩ := stripTrailing_decomp x
    intro hm; apply this; rw [e]; simp [hm]
  intro l hl
  unfold commentLines at hl
  split at hl
  · split at hl
    · exact this _ l hl
    · exact this _ l hl
    · split at hl
      · simp at hl
      · exact this _ l hl
  · exact this _ l hl
  · exact this _ l hl

theorem compactLoop_subset (kept ms : List GoString) : ∀ l ∈ compactLoop kept ms, l ∈ kept ∨ l ∈ ms := by
  induction ms generalizing kept with
  | nil => intro l hl; exact .inl hl
  | cons m ms ih =>
    intro l hl
    unfold compactLoop at hl
    split at hl
    · rcases ih _ l hl with h | h
      · rcases List.mem_append.1 h with h | h
        · exact .inl h
        · exact .inr (by simp at h; simp [h])
      · exact .inr (by simp [h])
    · rcases ih _ l hl with h | h
      · exact .inl h
      · exact .inr (by simp [h])

/-- The lines of the text: the ones read, with an empty line at the end if there is none yet. -/
theorem lines_text (g : List Comment) (h : ∀ c ∈ g, c.Ok) :
    lines (text (g.map Comment.source)) = reading g ∨ lines (text (g.map Comment.source)) = reading g ++ [[]] := by
  rw [← compact_reading g h]
  have hn : ∀ l ∈ compactLoop [] ((g.map Comment.source).flatMap commentLines), (10 : UInt8) ∉ l := by
    intro l hl
    rcases compactLoop_subset _ _ l hl with h | h
    · simp at h
    · obtain ⟨c, _, hc⟩ := List.mem_flatMap.1 h
      exact commentLines_no_newline c l hc
  unfold text
  generalize compactLoop [] ((g.map Comment.source).flatMap commentLines) = ls at hn ⊢
  dsimp only
  by_cases h0 : ls = []
  · subst h0; right; rfl
  · split
    · right
      rw [show join [10] (ls ++ [[]]) = docOf (ls ++ [[]]) from rfl, lines_docOf (by simp)]
      · simp [show trimSpace [] = [] from rfl]
      · intro l hl
        rcases List.mem_append.1 hl with h | h
        · exact hn l h
        · simp at h; simp [h]
    · left
      exact lines_docOf h0 hn

/-! ## A blank line at the end -/

theorem finish_blank_end (sm : DocSM) (ls : List GoString) : finish (sm.loopT (ls ++ [[]])) = finish (sm.loopT ls) := by
  rw [DocSM.loopT_append]
  cases h : sm.loopT ls with
  | error e => rfl
  | ok sm' =>
    simp only [DocSM.loopT, DocSM.step]
    cases hs : sm'.state with
    | init =>
      have : sm'.stepInit [] = sm' := by
        unfold DocSM.stepInit
        rw [if_neg (by decide), if_neg (by decide)]
      simp [this]
    | needBlankLine => simp [DocSM.stepNeedBlankLine, finish]
    | parsing => simp [DocSM.stepParsing, finish]
    | done => simp [DocSM.stepDone, hasPrefix, finish]

/-- What is declared by a comment group, in terms of the lines read. -/
theorem runDocs_text (g : List Comment) (h : ∀ c ∈ g, c.Ok) :
    runDocs (text (g.map Comment.source)) = finish (DocSM.start.loopT (reading g)) := by
  rw [runDocs_eq]
  rcases lines_text g h with e | e
  · rw [e]; rfl
  · rw [e]; exact finish_blank_end _ _

theorem reading_no_newline (g : List Comment) (h : ∀ c ∈ g, c.Ok) : ∀ l ∈ reading g, (10 : UInt8) ∉ l := by
  have : ∀ l ∈ lines (text (g.map Comment.source)), (10 : UInt8) ∉ l := by
    intro l hl
    unfold lines at hl
    obtain ⟨x, hx, rfl⟩ := List.mem_map.1 hl
    have hx := split_piece_no_sep 10 _ x hx
    obtain ⟨v, w, _, _, e⟩ := trimSpace_decomp x
    intro hm; apply hx; rw [e]; simp [hm]
  intro l hl
  rcases lines_text g h with e | e <;> exact this l (by rw [e]; simp [hl])

theorem reading_trimmed (g : List Comment) : (reading g).map trimSpace = reading g := by
  unfold reading
  rw [List.map_map]
  congr 1
  funext l
  exact trimSpace_idem l

/-- The text without comment markers that has the same lines. -/
theorem runDocs_reading (g : List Comment) (h : ∀ c ∈ g, c.Ok) :
    runDocs (docOf (reading g)) = finish (DocSM.start.loopT (reading g)) := by
  by_cases h0 : reading g = []
  · rw [h0]; rfl
  · rw [runDocs_docOf h0 (reading_no_newline g h), reading_trimmed]

end Serum.CommentText
