import Verif.GoStringLemmas
import Verif.Spec.Space

/-!
# C04, C08 — which characters count as white space around the parts of a documentation or an annotation
-/

namespace Serum.Props.Space
open Serum GoStr Serum.Space

/-- The encodings that are cut off are those of the Unicode white space characters, all of them and no others. -/
theorem space_table (e : GoString) : e ∈ spaceEncs ↔ ∃ r, IsSpace r ∧ e = utf8 r := by
  constructor
  · intro h
    have all : ∀ e ∈ spaceEncs, ∃ r ∈ [9, 10, 11, 12, 13, 0x20, 0x85, 0xA0, 0x1680, 0x2000, 0x2001, 0x2002, 0x2003, 0x2004, 0x2005,
        0x2006, 0x2007, 0x2008, 0x2009, 0x200A, 0x2028, 0x2029, 0x202F, 0x205F, 0x3000], e = utf8 r := by decide
    obtain ⟨r, hr, he⟩ := all e h
    refine ⟨r, ?_, he⟩
    simp only [List.mem_cons, List.not_mem_nil, or_false] at hr
    unfold IsSpace
    omega
  · rintro ⟨r, hr, rfl⟩
    have low : ∀ r : Fin 16, 9 ≤ r.1 ∧ r.1 ≤ 13 → utf8 r ∈ spaceEncs := by decide
    have mid : ∀ r : Fin 11, utf8 (0x2000 + r.1) ∈ spaceEncs := by decide
    rcases hr with h | h | h | h | h | h | h | h | h | h | h
    · exact low ⟨r, by omega⟩ h
    · subst h; decide
    · subst h; decide
    · subst h; decide
    · subst h; decide
    · have := mid ⟨r - 0x2000, by omega⟩
      have e : 0x2000 + (r - 0x2000) = r := by omega
      rwa [e] at this
    all_goals (subst h; decide)

theorem white_iff (w : GoString) : White w ↔ IsBlank w := by
  constructor
  · intro h
    induction h with
    | nil => exact .nil
    | cons hr _ ih => exact .cons ((space_table _).2 ⟨_, hr, rfl⟩) ih
  · intro h
    induction h with
    | nil => exact .nil
    | cons he _ ih =>
      obtain ⟨r, hr, rfl⟩ := (space_table _).1 he
      exact .cons hr ih

/-- **C04/C08**, trimming: every string consists, in exactly one way, of white space, a part that neither begins nor ends with white
space, and white space again; that part is what the analyser reads. -/
theorem trim_exact (s t : GoString) : trimSpace s = t ↔ Tight t ∧ ∃ v w, White v ∧ White w ∧ s = v ++ t ++ w := by
  rw [trimSpace_eq_iff]
  have : Trimmed t ↔ Tight t :=
    ⟨fun h r hr => h _ ((space_table _).2 ⟨r, hr, rfl⟩), fun h e he => by
      obtain ⟨r, hr, rfl⟩ := (space_table _).1 he
      exact h r hr⟩
  simp only [this, white_iff]

/-- A line consists of white space only exactly when nothing is left of it. -/
theorem blank_exact (s : GoString) : trimSpace s = [] ↔ White s := by
  rw [trimSpace_nil_iff, white_iff]

/-- Non-ASCII white space counts: an ideographic space, a no-break space and a tab around `some-error`. -/
example : trimSpace ([0xE3, 0x80, 0x80] ++ b!"some-error" ++ [0xC2, 0xA0, 9]) = b!"some-error" := by decide

/-- Splitting: the pieces are free of the separator and give back the text; there is exactly one such list. -/
theorem split_exact (sep : UInt8) (s : GoString) (ls : List GoString) :
    split sep s = ls ↔ ls ≠ [] ∧ (∀ l ∈ ls, sep ∉ l) ∧ join [sep] ls = s := by
  constructor
  · rintro rfl
    exact ⟨split_ne_nil sep s, split_piece_no_sep sep s, join_split sep s⟩
  · rintro ⟨h1, h2, rfl⟩
    exact split_join sep ls h1 h2

example : split 10 b!"a\n\nb" = [b!"a", [], b!"b"] := by decide

end Serum.Props.Space
