import Verif.GoString

/-! # Error code format (`isErrorCodeValid`, analysis/analyse.go:183-211) -/

namespace Serum
open GoStr

/-- The test inside the rune loop of `isErrorCodeValid` (analyse.go:198). -/
def runeOk (c : Nat) : Bool :=
  c == 45 || (97 ≤ c && c ≤ 122) || (65 ≤ c && c ≤ 90) || (48 ≤ c && c ≤ 57)

/-- analyse.go:183-204 `isErrorCodeValid`. The empty string is rejected; the first *byte* must not be
`-` or a digit; the last *byte* must not be `-`; every *rune* of `range code` must be in
`[a-zA-Z0-9\-]`. -/
def isErrorCodeValid (code : GoString) : Bool :=
  match code with
  | [] => false
  | c0 :: cs =>
    if c0 == 45 || (48 ≤ c0 && c0 ≤ 57) then false
    else if (c0 :: cs).getLast (by simp) == 45 then false
    else (runes code).all runeOk

namespace CodeFormat

/-- `[a-zA-Z]` -/
def Letter (b : UInt8) : Prop := (97 ≤ b ∧ b ≤ 122) ∨ (65 ≤ b ∧ b ≤ 90)
/-- `[0-9]` -/
def Digit (b : UInt8) : Prop := 48 ≤ b ∧ b ≤ 57
/-- `-` -/
def Dash (b : UInt8) : Prop := b = 45

/-- Specification: the string matches `^[a-zA-Z][a-zA-Z0-9\-]*[a-zA-Z0-9]$` or `^[a-zA-Z]$`. -/
def WellFormed (s : GoString) : Prop :=
  (∃ first mid last, s = first :: (mid ++ [last]) ∧ Letter first ∧
    (∀ b ∈ mid, Letter b ∨ Digit b ∨ Dash b) ∧ (Letter last ∨ Digit last)) ∨
  (∃ b, s = [b] ∧ Letter b)

end CodeFormat

open CodeFormat

theorem runeOk_lt {r : Nat} (h : runeOk r = true) : r < 128 := by
  simp [runeOk] at h; omega

theorem runeOk_toNat (b : UInt8) : runeOk b.toNat = true ↔ Letter b ∨ Digit b ∨ Dash b := by
  simp only [runeOk, Letter, Digit, Dash, UInt8.le_iff_toNat_le, ← UInt8.toNat_inj]
  simp
  omega

theorem decodeRune_ascii {b : UInt8} (h : b < 0x80) (rest : GoString) :
    decodeRune (b :: rest) = (b.toNat, 1) := by
  simp [decodeRune, h]

theorem decodeRune_high {b : UInt8} (h : ¬ b < 0x80) (rest : GoString) :
    128 ≤ (decodeRune (b :: rest)).1 := by
  have hb : 128 ≤ b.toNat := by
    rw [UInt8.lt_iff_toNat_lt] at h; simp at h; exact h
  unfold decodeRune
  simp only [h, if_false]
  split
  · rename_i h1
    simp [UInt8.le_iff_toNat_le] at h1
    split
    · split
      · show 128 ≤ _ + _; omega
      · show 128 ≤ 0xFFFD; omega
    · show 128 ≤ 0xFFFD; omega
  · split
    · rename_i h1 h2
      simp [UInt8.le_iff_toNat_le] at h2
      split
      · rename_i b1 b2 _
        by_cases h4 : b = 0xE0
        · subst h4
          simp only [if_true, show ((224 : UInt8) = 237) = False from by decide, if_false]
          split
          · rename_i h3
            simp [UInt8.le_iff_toNat_le] at h3
            show 128 ≤ _ + _ + _
            omega
          · show 128 ≤ 0xFFFD; omega
        · have : b.toNat ≠ 0xE0 := by
            intro e; exact h4 (by rw [← UInt8.toNat_inj]; simpa using e)
          simp only [h4, if_false]
          generalize (if b = 237 then (159 : UInt8) else 191) = hi
          split
          · show 128 ≤ _ + _ + _; omega
          · show 128 ≤ 0xFFFD; omega
      · show 128 ≤ 0xFFFD; omega
    · split
      · rename_i h1 h2 h3
        simp [UInt8.le_iff_toNat_le] at h3
        split
        · rename_i b1 b2 b3 _
          by_cases h4 : b = 0xF0
          · subst h4
            simp only [if_true, show ((240 : UInt8) = 244) = False from by decide, if_false]
            split
            · rename_i h3
              simp [UInt8.le_iff_toNat_le] at h3
              show 128 ≤ _ + _ + _ + _
              omega
            · show 128 ≤ 0xFFFD; omega
          · have : b.toNat ≠ 0xF0 := by
              intro e; exact h4 (by rw [← UInt8.toNat_inj]; simpa using e)
            simp only [h4, if_false]
            generalize (if b = 244 then (143 : UInt8) else 191) = hi
            split
            · show 128 ≤ _ + _ + _ + _; omega
            · show 128 ≤ 0xFFFD; omega
        · show 128 ≤ 0xFFFD; omega
      · show 128 ≤ 0xFFFD; omega

theorem runesAux_all (n : Nat) (s : GoString) (hn : s.length ≤ n) :
    (runesAux n s).all runeOk = true ↔ ∀ b ∈ s, Letter b ∨ Digit b ∨ Dash b := by
  induction n generalizing s with
  | zero =>
    have : s = [] := List.length_eq_zero_iff.1 (by omega)
    subst this; simp [runesAux]
  | succ n ih =>
    cases s with
    | nil => simp [runesAux]
    | cons b rest =>
      simp only [runesAux]
      by_cases hb : b < 0x80
      · rw [decodeRune_ascii hb]
        simp only [List.all_cons, Bool.and_eq_true, runeOk_toNat, List.mem_cons, forall_eq_or_imp]
        rw [show (1 : Nat) - 1 = 0 from rfl, List.drop_zero, ih rest (by simpa using hn)]
      · have h1 := decodeRune_high hb rest
        constructor
        · intro h
          simp only [List.all_cons, Bool.and_eq_true] at h
          have := runeOk_lt h.1
          omega
        · intro h
          have h2 := (runeOk_toNat b).2 (h b (by simp))
          have := runeOk_lt h2
          exact absurd (show b < 0x80 by rw [UInt8.lt_iff_toNat_lt]; simpa using this) hb

theorem runes_all (s : GoString) :
    (runes s).all runeOk = true ↔ ∀ b ∈ s, Letter b ∨ Digit b ∨ Dash b := runesAux_all _ s (Nat.le_refl _)

theorem letter_of {b : UInt8} (h : Letter b ∨ Digit b ∨ Dash b) (h1 : ¬ Dash b) (h2 : ¬ Digit b) :
    Letter b := by
  rcases h with h | h | h
  · exact h
  · exact absurd h h2
  · exact absurd h h1

theorem getLast_cons_snoc (a z : UInt8) (m : GoString) :
    (a :: (m ++ [z])).getLast (by simp) = z := by
  rw [List.getLast_cons (by simp)]; simp

/-- Key lemma: the checker decides exactly the regular language. -/
theorem isErrorCodeValid_iff_wellFormed (s : GoString) : isErrorCodeValid s = true ↔ WellFormed s := by
  cases s with
  | nil => simp [isErrorCodeValid, WellFormed]
  | cons c0 cs =>
    unfold isErrorCodeValid
    dsimp only
    constructor
    · intro h
      split at h
      · cases h
      · rename_i h0
        split at h
        · cases h
        · rename_i h1
          rw [runes_all] at h
          have hd : ¬ Dash c0 := by intro e; rw [Dash] at e; subst e; simp at h0
          have hg : ¬ Digit c0 := by
            intro e; simp only [Digit] at e; simp [e.1, e.2] at h0
          have hl := letter_of (h c0 (by simp)) hd hg
          rcases List.eq_nil_or_concat cs with rfl | ⟨m, z, rfl⟩
          · exact .inr ⟨c0, rfl, hl⟩
          · refine .inl ⟨c0, m, z, by simp, hl, fun b hb => h b (by simp [hb]), ?_⟩
            have hz : z ≠ 45 := by
              intro e; apply h1; subst e
              simp [getLast_cons_snoc]
            rcases h z (by simp) with h2 | h2 | h2
            · exact .inl h2
            · exact .inr h2
            · exact absurd h2 hz
    · intro h
      have hfirst : Letter c0 := by
        rcases h with ⟨f, m, z, e, hf, _⟩ | ⟨b, e, hb⟩
        · simp at e; rw [e.1]; exact hf
        · simp at e; rw [e.1]; exact hb
      have hall : ∀ b ∈ c0 :: cs, Letter b ∨ Digit b ∨ Dash b := by
        rcases h with ⟨f, m, z, e, hf, hm, hz⟩ | ⟨b, e, hb⟩
        · rw [e]; intro b hb
          simp only [List.mem_cons, List.mem_append, List.not_mem_nil, or_false] at hb
          rcases hb with rfl | hb | rfl
          · exact .inl hf
          · exact hm b hb
          · rcases hz with h | h
            · exact .inl h
            · exact .inr (.inl h)
        · rw [e]; intro x hx; simp at hx; subst hx; exact .inl hb
      have hlast : (c0 :: cs).getLast (by simp) ≠ 45 := by
        have nd : ∀ b : UInt8, Letter b ∨ Digit b → b ≠ 45 := by
          intro b hb e; subst e; simp only [Letter, Digit] at hb; revert hb; decide
        rcases h with ⟨f, m, z, e, hf, hm, hz⟩ | ⟨b, e, hb⟩
        · have : (c0 :: cs).getLast (by simp) = z := by simp [e, getLast_cons_snoc]
          rw [this]; exact nd z hz
        · have : (c0 :: cs).getLast (by simp) = b := by simp [e]
          rw [this]; exact nd b (.inl hb)
      have h0 : (c0 == 45 || (48 ≤ c0 && c0 ≤ 57)) = false := by
        simp only [Letter, UInt8.le_iff_toNat_le] at hfirst
        rw [Bool.eq_false_iff]; intro c
        simp only [Bool.or_eq_true, beq_iff_eq, Bool.and_eq_true, decide_eq_true_eq,
          UInt8.le_iff_toNat_le, ← UInt8.toNat_inj] at c
        simp at c hfirst
        omega
      rw [h0]
      simp only [Bool.false_eq_true, if_false]
      rw [if_neg (by simpa using hlast), runes_all]
      exact hall

end Serum
