import Verif.Spec.ConstantSpec
import Verif.Constant

/-! # Lemmas about constants: `strconv.Unquote (strconv.Quote s)` is `s` -/

namespace Serum
open GoStr

/-- A rune that `utf8.DecodeRune` produced from a proper encoding. -/
structure Decoded (s : GoString) (r w : Nat) : Prop where
  enc : encodeRune r = s.take w
  pos : 1 ≤ w
  len : w ≤ s.length
  max : r ≤ 0x10FFFF
  again : ∀ t, decodeRune (s.take w ++ t) = (r, w)
  high : 0x80 ≤ r → ∃ c t, s.take w = c :: t ∧ 0x80 ≤ c ∧ ∀ x ∈ s.take w, 0x80 ≤ x

private theorem ofNat_eq {n : Nat} {b : UInt8} (h : n = b.toNat) : UInt8.ofNat n = b := by
  subst h; simp

theorem decoded (b : UInt8) (rest : GoString) (h : ¬ ((decodeRune (b :: rest)).2 = 1 ∧ (decodeRune (b :: rest)).1 = 0xFFFD)) :
    Decoded (b :: rest) (decodeRune (b :: rest)).1 (decodeRune (b :: rest)).2 := by
  by_cases h0 : b < 0x80
  · have hd : ∀ t, decodeRune (b :: t) = (b.toNat, 1) := fun t => by simp [decodeRune, h0]
    have hb : b.toNat < 128 := by rw [UInt8.lt_iff_toNat_lt] at h0; simpa using h0
    rw [hd rest]
    refine ⟨?_, by simp, by simp, by simp; omega, fun t => by simp [hd], fun h => by simp at h; omega⟩
    simp [encodeRune, hb]
  · have hb : 128 ≤ b.toNat := by rw [UInt8.lt_iff_toNat_lt] at h0; simp at h0; exact h0
    by_cases h1 : (0xC2 ≤ b && b ≤ 0xDF) = true
    · match rest with
      | [] => simp [decodeRune, h0, h1] at h
      | b1 :: rest =>
        by_cases hc : isCont b1 = true
        · have hd : ∀ t, decodeRune (b :: b1 :: t) = ((b.toNat - 0xC0) * 64 + (b1.toNat - 0x80), 2) :=
            fun t => by simp only [decodeRune, h0, h1, hc, if_true, if_false]
          rw [hd rest]
          simp [isCont, UInt8.le_iff_toNat_le] at h1 hc
          refine ⟨?_, by simp, by simp, by simp only; omega, fun t => by simp [hd], fun _ => ⟨b, [b1], by simp, by simp [UInt8.le_iff_toNat_le]; omega, by simp [UInt8.le_iff_toNat_le]; omega⟩⟩
          simp only [encodeRune]
          rw [if_neg (by omega), if_pos (by omega)]
          simp only [List.take_succ_cons, List.take_zero]
          rw [ofNat_eq (b := b) (by omega), ofNat_eq (b := b1) (by omega)]
        · simp [decodeRune, h0, h1, hc] at h
    · by_cases h2 : (0xE0 ≤ b && b ≤ 0xEF) = true
      · match rest with
        | [] => simp [decodeRune, h0, h1, h2] at h
        | [b1] => simp [decodeRune, h0, h1, h2] at h
        | b1 :: b2 :: rest =>
          by_cases hc : ((if b = 0xE0 then (0xA0 : UInt8) else 0x80) ≤ b1 && b1 ≤ (if b = 0xED then (0x9F : UInt8) else 0xBF) && isCont b2) = true
          · have hd : ∀ t, decodeRune (b :: b1 :: b2 :: t) =
                ((b.toNat - 0xE0) * 4096 + (b1.toNat - 0x80) * 64 + (b2.toNat - 0x80), 3) :=
              fun t => by simp only [decodeRune, h0, h1, h2, hc, if_true, if_false, Bool.false_eq_true]
            rw [hd rest]
            have hlo : 0x80 ≤ b1.toNat ∧ (b.toNat = 0xE0 → 0xA0 ≤ b1.toNat) ∧ b1.toNat ≤ 0xBF := by
              simp only [Bool.and_eq_true, decide_eq_true_eq] at hc
              obtain ⟨⟨ha, hb⟩, _⟩ := hc
              refine ⟨?_, ?_, ?_⟩
              · split at ha <;> (simp [UInt8.le_iff_toNat_le] at ha; omega)
              · intro e
                have : b = 0xE0 := by rw [← UInt8.toNat_inj]; simpa using e
                rw [if_pos this] at ha; simpa [UInt8.le_iff_toNat_le] using ha
              · split at hb <;> (simp [UInt8.le_iff_toNat_le] at hb; omega)
            simp [UInt8.le_iff_toNat_le] at h2
            have hb2 : 0x80 ≤ b2.toNat ∧ b2.toNat ≤ 0xBF := by
              simp only [Bool.and_eq_true] at hc
              simpa [isCont, UInt8.le_iff_toNat_le] using hc.2
            refine ⟨?_, by simp, by simp, by simp only; omega, fun t => by simp [hd], fun _ => ⟨b, [b1, b2], by simp, by simp [UInt8.le_iff_toNat_le]; omega, by simp [UInt8.le_iff_toNat_le]; omega⟩⟩
            simp only [encodeRune]
            rw [if_neg (by omega), if_neg (by omega), if_pos (by omega)]
            simp only [List.take_succ_cons, List.take_zero]
            rw [ofNat_eq (b := b) (by omega), ofNat_eq (b := b1) (by omega), ofNat_eq (b := b2) (by omega)]
          · simp only [decodeRune, h0, h1, h2, hc, if_true, if_false] at h
            simp at h
      · by_cases h3 : (0xF0 ≤ b && b ≤ 0xF4) = true
        · match rest with
          | [] => simp [decodeRune, h0, h1, h2, h3] at h
          | [b1] => simp [decodeRune, h0, h1, h2, h3] at h
          | [b1, b2] => simp [decodeRune, h0, h1, h2, h3] at h
          | b1 :: b2 :: b3 :: rest =>
            by_cases hc : ((if b = 0xF0 then (0x90 : UInt8) else 0x80) ≤ b1 && b1 ≤ (if b = 0xF4 then (0x8F : UInt8) else 0xBF) && isCont b2 && isCont b3) = true
            · have hd : ∀ t, decodeRune (b :: b1 :: b2 :: b3 :: t) =
                  ((b.toNat - 0xF0) * 262144 + (b1.toNat - 0x80) * 4096 + (b2.toNat - 0x80) * 64
                    + (b3.toNat - 0x80), 4) :=
                fun t => by simp only [decodeRune, h0, h1, h2, h3, hc, if_true, if_false, Bool.false_eq_true]
              rw [hd rest]
              have hlo : 0x80 ≤ b1.toNat ∧ (b.toNat = 0xF0 → 0x90 ≤ b1.toNat) ∧ b1.toNat ≤ 0xBF ∧
                  (b.toNat = 0xF4 → b1.toNat ≤ 0x8F) := by
                simp only [Bool.and_eq_true, decide_eq_true_eq] at hc
                obtain ⟨⟨⟨ha, hb⟩, _⟩, _⟩ := hc
                refine ⟨?_, ?_, ?_, ?_⟩
                · split at ha <;> (simp [UInt8.le_iff_toNat_le] at ha; omega)
                · intro e
                  have : b = 0xF0 := by rw [← UInt8.toNat_inj]; simpa using e
                  rw [if_pos this] at ha; simpa [UInt8.le_iff_toNat_le] using ha
                · split at hb <;> (simp [UInt8.le_iff_toNat_le] at hb; omega)
                · intro e
                  have : b = 0xF4 := by rw [← UInt8.toNat_inj]; simpa using e
                  rw [if_pos this] at hb; simpa [UInt8.le_iff_toNat_le] using hb
              simp [UInt8.le_iff_toNat_le] at h3
              have hb2 : 0x80 ≤ b2.toNat ∧ b2.toNat ≤ 0xBF := by
                simp only [Bool.and_eq_true] at hc
                simpa [isCont, UInt8.le_iff_toNat_le] using hc.1.2
              have hb3 : 0x80 ≤ b3.toNat ∧ b3.toNat ≤ 0xBF := by
                simp only [Bool.and_eq_true] at hc
                simpa [isCont, UInt8.le_iff_toNat_le] using hc.2
              refine ⟨?_, by simp, by simp, by simp only; omega, fun t => by simp [hd], fun _ => ⟨b, [b1, b2, b3], by simp, by simp [UInt8.le_iff_toNat_le]; omega, by simp [UInt8.le_iff_toNat_le]; omega⟩⟩
              simp only [encodeRune]
              rw [if_neg (by omega), if_neg (by omega), if_neg (by omega)]
              simp only [List.take_succ_cons, List.take_zero]
              rw [ofNat_eq (b := b) (by omega), ofNat_eq (b := b1) (by omega), ofNat_eq (b := b2) (by omega),
                ofNat_eq (b := b3) (by omega)]
            · simp only [decodeRune, h0, h1, h2, h3, hc, if_true, if_false] at h
              simp at h
        · simp [decodeRune, h0, h1, h2, h3] at h

theorem unhex_hexDigit {n : Nat} (h : n < 16) : unhex (hexDigit n) = some n := by
  have : ∀ n : Fin 16, unhex (hexDigit n.1) = some n.1 := by decide
  exact this ⟨n, h⟩

theorem hexDigit_plain {n : Nat} (h : n < 16) : hexDigit n ≠ 10 ∧ hexDigit n < 0x80 := by
  have : ∀ n : Fin 16, hexDigit n.1 ≠ 10 ∧ hexDigit n.1 < 0x80 := by decide
  exact this ⟨n, h⟩

theorem readHex_append (k : Nat) : ∀ (j v n : Nat) (t : GoString),
    readHex (k + j) v (hexDigits k n ++ t) = readHex j (v * 16 ^ k + n % 16 ^ k) t := by
  induction k with
  | zero => intro j v n t; simp [hexDigits, Nat.mod_one]
  | succ k ih =>
    intro j v n t
    rw [hexDigits, List.append_assoc, show k + 1 + j = k + (j + 1) by omega, ih]
    simp only [List.cons_append, List.nil_append, readHex, unhex_hexDigit (Nat.mod_lt n (by decide : 16 > 0))]
    congr 1
    rw [Nat.pow_succ, Nat.mul_comm (16 ^ k) 16, Nat.mod_mul, Nat.add_mul, Nat.mul_assoc]
    rw [Nat.mul_comm (16 ^ k) 16, Nat.mul_comm (n / 16 % 16 ^ k) 16]
    omega

theorem readHex_hexDigits {k n : Nat} (h : n < 16 ^ k) (t : GoString) :
    readHex k 0 (hexDigits k n ++ t) = some (n, t) := by
  have := readHex_append k 0 0 n t
  simpa [readHex, Nat.mod_eq_of_lt h] using this

theorem hexDigits_plain (k n : Nat) : ∀ b ∈ hexDigits k n, b ≠ 10 := by
  induction k generalizing n with
  | zero => simp [hexDigits]
  | succ k ih =>
    intro b hb
    simp only [hexDigits, List.mem_append, List.mem_singleton] at hb
    rcases hb with hb | rfl
    · exact ih _ b hb
    · exact (hexDigit_plain (Nat.mod_lt n (by decide))).1

/-- Reading back one escaped rune. -/
theorem unquoteChar_escaped (isPrint : Nat → Bool) {s : GoString} {r w : Nat} (d : Decoded s r w) (t : GoString) :
    unquoteChar (escapedRune isPrint r ++ t) = some (s.take w, t) := by
  have lit : ∀ c : UInt8, r = c.toNat → encodeRune r = [c] → s.take w = [c] := fun c _ h => by rw [← d.enc, h]
  unfold escapedRune
  have small : ∀ c : UInt8, r = c.toNat → c < 0x80 → s.take w = [c] := by
    intro c h hc
    rw [← d.enc, h]
    have : c.toNat < 128 := by rw [UInt8.lt_iff_toNat_lt] at hc; simpa using hc
    simp [encodeRune, this]
  split
  · rename_i h
    rcases h with h | h
    · rw [small 34 h (by decide)]; subst h; simp [unquoteChar]
    · rw [small 92 h (by decide)]; subst h; simp [unquoteChar]
  · rename_i hq
    split
    · by_cases hr : r < 0x80
      · have hb : (UInt8.ofNat r).toNat = r := by simp; omega
        have he : s.take w = [UInt8.ofNat r] := small _ hb.symm (by rw [UInt8.lt_iff_toNat_lt, hb]; simpa using hr)
        rw [d.enc, he]
        have h34 : ¬ (UInt8.ofNat r = 34) := by
          intro e; apply hq; left; rw [← hb, e]; rfl
        have h92 : ¬ (UInt8.ofNat r = 92) := by
          intro e; apply hq; right; rw [← hb, e]; rfl
        have h80 : ¬ (0x80 ≤ UInt8.ofNat r) := by
          rw [UInt8.le_iff_toNat_le, hb]; simpa using hr
        simp [unquoteChar, h34, h92, h80]
      · obtain ⟨c, u, hcu, hc, -⟩ := d.high (by omega)
        have h34 : ¬ (c = 34) := by rintro rfl; exact absurd hc (by decide)
        rw [d.enc]
        have hag := d.again t
        have hlen : (s.take w).length = w := by rw [List.length_take]; exact Nat.min_eq_left d.len
        rw [hcu] at hag hlen ⊢
        simp only [List.cons_append, unquoteChar, h34, hc, if_true, if_false]
        rw [show decodeRune (c :: (u ++ t)) = (r, w) from hag]
        simp only [d.enc, hcu, Option.some.injEq, Prod.mk.injEq, true_and]
        rw [← List.cons_append, ← hlen, List.drop_left]
    · split
      · rename_i h; rw [small 7 h (by decide)]; simp [unquoteChar]
      · split
        · rename_i h; rw [small 8 h (by decide)]; simp [unquoteChar]
        · split
          · rename_i h; rw [small 12 h (by decide)]; simp [unquoteChar]
          · split
            · rename_i h; rw [small 10 h (by decide)]; simp [unquoteChar]
            · split
              · rename_i h; rw [small 13 h (by decide)]; simp [unquoteChar]
              · split
                · rename_i h; rw [small 9 h (by decide)]; simp [unquoteChar]
                · split
                  · rename_i h; rw [small 11 h (by decide)]; simp [unquoteChar]
                  · split
                    · rename_i h
                      have hr : r < 128 := by omega
                      have hb : (UInt8.ofNat r).toNat = r := by simp; omega
                      have he : s.take w = [UInt8.ofNat r] :=
                        small _ hb.symm (by rw [UInt8.lt_iff_toNat_lt, hb]; simpa using hr)
                      simp [unquoteChar, readHex_hexDigits (k := 2) (n := r) (by omega), he]
                    · split
                      · have : r < 16 ^ 4 := by omega
                        have h2 : ¬ (r > 0x10FFFF) := by have := d.max; omega
                        simp [unquoteChar, readHex_hexDigits (k := 4) this, h2, d.enc]
                      · have : r < 16 ^ 8 := by have := d.max; omega
                        have h2 : ¬ (r > 0x10FFFF) := by have := d.max; omega
                        simp [unquoteChar, readHex_hexDigits (k := 8) this, h2, d.enc]

theorem unquoteLoop_step {n : Nat} {q out rest : GoString} (hq : q ≠ []) (h : unquoteChar q = some (out, rest)) :
    unquoteLoop (n + 1) q = (unquoteLoop n rest).map (out ++ ·) := by
  cases q with
  | nil => exact absurd rfl hq
  | cons c q => rw [unquoteLoop]; simp [h]; simp

theorem escapedRune_ne_nil (isPrint : Nat → Bool) {s : GoString} {r w : Nat} (d : Decoded s r w) :
    escapedRune isPrint r ≠ [] := by
  have : encodeRune r ≠ [] := by
    rw [d.enc]; intro h
    have hl := congrArg List.length h
    rw [List.length_take, Nat.min_eq_left d.len] at hl
    have := d.pos
    simp only [List.length_nil] at hl; omega
  unfold escapedRune
  repeat' split
  all_goals first | exact this | simp

theorem quoteLoop_roundtrip (isPrint : Nat → Bool) : ∀ (n : Nat) (s : GoString), s.length ≤ n →
    ∀ m, (quoteLoop isPrint n s).length ≤ m → unquoteLoop m (quoteLoop isPrint n s) = some s := by
  intro n
  induction n with
  | zero =>
    intro s hs m _
    have : s = [] := List.length_eq_zero_iff.1 (by omega)
    subst this; simp [quoteLoop, unquoteLoop]
  | succ n ih =>
    intro s hs m hm
    match s with
    | [] => simp [quoteLoop, unquoteLoop]
    | b :: rest =>
      simp only [List.length_cons] at hs
      rw [quoteLoop] at hm ⊢
      simp only at hm ⊢
      by_cases hbad : (decodeRune (b :: rest)).2 = 1 ∧ (decodeRune (b :: rest)).1 = 0xFFFD
      · rw [if_pos hbad] at hm ⊢
        have hu : unquoteChar ([92, 120] ++ hexDigits 2 b.toNat ++ quoteLoop isPrint n rest) =
            some ([b], quoteLoop isPrint n rest) := by
          have hb : b.toNat < 16 ^ 2 := by have := b.toNat_lt; omega
          simp [unquoteChar, readHex_hexDigits (k := 2) hb]
        match m with
        | 0 => simp at hm
        | m + 1 =>
          rw [unquoteLoop_step (by simp) hu, ih rest (by omega) m (by simp at hm ⊢; omega)]
          simp
      · rw [if_neg hbad] at hm ⊢
        have d := decoded b rest hbad
        generalize (decodeRune (b :: rest)).1 = r at *
        generalize (decodeRune (b :: rest)).2 = w at *
        have hu := unquoteChar_escaped isPrint d (quoteLoop isPrint n (rest.drop (w - 1)))
        have hne := escapedRune_ne_nil isPrint d
        match m with
        | 0 =>
          simp only [List.length_append] at hm
          have := List.length_pos_iff.2 hne
          omega
        | m + 1 =>
          rw [unquoteLoop_step (by simp [hne]) hu, ih]
          · have hw := d.pos
            have : (b :: rest).drop w = rest.drop (w - 1) := by
              cases w with
              | zero => omega
              | succ w => simp
            rw [← this]
            simp
          · simp; omega
          · simp only [List.length_append] at hm
            have := List.length_pos_iff.2 hne
            omega

theorem escapedRune_no_newline (isPrint : Nat → Bool) (hp : isPrint 10 = false) {s : GoString} {r w : Nat}
    (d : Decoded s r w) : ∀ b ∈ escapedRune isPrint r, b ≠ 10 := by
  unfold escapedRune
  by_cases h : r = 34 ∨ r = 92
  · rw [if_pos h]
    rcases h with h | h <;> subst h <;> decide
  · rw [if_neg h]
    by_cases hpr : isPrint r = true
    · rw [if_pos hpr]
      by_cases hr : r < 0x80
      · intro b hb
        simp [encodeRune, hr] at hb
        subst hb
        intro e
        have hb : (UInt8.ofNat r).toNat = r := by simp; omega
        rw [e] at hb
        have : r = 10 := by simpa using hb.symm
        subst this; simp [hp] at hpr
      · obtain ⟨c, u, hcu, -, hall⟩ := d.high (by omega)
        intro b hb
        rw [d.enc] at hb
        have := hall b hb
        rintro rfl
        exact absurd this (by decide)
    · rw [if_neg hpr]
      repeat' split
      all_goals first
        | decide
        | (intro b hb
           simp only [List.mem_append, List.mem_cons, List.not_mem_nil, or_false] at hb
           rcases hb with (rfl | rfl) | hb
           · decide
           · decide
           · exact hexDigits_plain _ _ b hb)

theorem quoteLoop_no_newline (isPrint : Nat → Bool) (hp : isPrint 10 = false) : ∀ (n : Nat) (s : GoString),
    ∀ b ∈ quoteLoop isPrint n s, b ≠ 10 := by
  intro n
  induction n with
  | zero => intro s b hb; simp [quoteLoop] at hb
  | succ n ih =>
    intro s
    match s with
    | [] => intro b hb; simp [quoteLoop] at hb
    | c :: rest =>
      intro b hb
      rw [quoteLoop] at hb
      simp only at hb
      by_cases hbad : (decodeRune (c :: rest)).2 = 1 ∧ (decodeRune (c :: rest)).1 = 0xFFFD
      · rw [if_pos hbad] at hb
        simp only [List.mem_append, List.mem_cons, List.not_mem_nil, or_false] at hb
        rcases hb with ((rfl | rfl) | hb) | hb
        · decide
        · decide
        · exact hexDigits_plain _ _ b hb
        · exact ih _ b hb
      · rw [if_neg hbad, List.mem_append] at hb
        rcases hb with hb | hb
        · exact escapedRune_no_newline isPrint hp (decoded c rest hbad) b hb
        · exact ih _ b hb

/-- `strconv.Unquote(strconv.Quote(s))` is `s`, for every byte string. -/
theorem unquote_quote (isPrint : Nat → Bool) (hp : isPrint 10 = false) (s : GoString) :
    unquote (quote isPrint s) = some s := by
  have h1 : (quoteLoop isPrint s.length s ++ [34]).reverse = 34 :: (quoteLoop isPrint s.length s).reverse := by simp
  have h2 : ¬ (10 ∈ (quoteLoop isPrint s.length s).reverse) := by
    rw [List.mem_reverse]; intro h
    exact quoteLoop_no_newline isPrint hp _ _ 10 h rfl
  simp only [quote, unquote, List.cons_append, List.nil_append, h1, h2, if_false, List.reverse_reverse,
    List.length_reverse]
  exact quoteLoop_roundtrip isPrint _ _ (Nat.le_refl _) _ (Nat.le_refl _)

/-- A shortened constant is never unquoted. -/
theorem unquote_dots (s : GoString) : unquote (s ++ [46, 46, 46]) = none := by
  unfold unquote
  match s with
  | [] => simp
  | c :: s =>
    by_cases h : c = 34
    · subst h; simp
    · simp only [List.cons_append]
      split
      · rename_i heq; injection heq with h1 h2; exact absurd h1 h
      · rfl

/-- The text of a constant that survives quoting, shortening and unquoting. -/
theorem unquote_constantString (isPrint : Nat → Bool) (hp : isPrint 10 = false) (s : GoString) :
    unquote (constantString isPrint s) = if (runes (quote isPrint s)).length > 72 then none else some s := by
  unfold constantString
  simp only
  split
  · exact unquote_dots _
  · exact unquote_quote isPrint hp s

/-- The error is the reason. -/
theorem because_iff {isPrint : Nat → Bool} (hp : isPrint 10 = false) {v : Const} {e : ConstError} :
    Because isPrint v e ↔ e = constantError isPrint v := by
  cases v with
  | other => constructor
             · intro h; cases h; rfl
             · rintro rfl; exact .type
  | str s =>
    simp only [constantError, unquote_constantString isPrint hp]
    by_cases h : (runes (quote isPrint s)).length > 72
    · simp only [h, if_true]
      constructor
      · intro hb; cases hb with
        | long => rfl
        | format h' => omega
      · rintro rfl; exact .long h
    · simp only [h, if_false, reduceCtorEq]
      constructor
      · intro hb; cases hb with
        | long h' => omega
        | format => rfl
      · rintro rfl; exact .format (by omega)

/-- `unicode.IsPrint` on ASCII. -/
def PrintsAscii (isPrint : Nat → Bool) : Prop := ∀ r < 128, isPrint r = (decide (32 ≤ r) && decide (r < 127))

theorem quoteLoop_plain {isPrint : Nat → Bool} (hp : PrintsAscii isPrint) : ∀ (n : Nat) (s : GoString), s.length ≤ n →
    (∀ b ∈ s, 32 ≤ b ∧ b < 127 ∧ b ≠ 34 ∧ b ≠ 92) → quoteLoop isPrint n s = s := by
  intro n
  induction n with
  | zero => intro s hs _; have : s = [] := List.length_eq_zero_iff.1 (by omega); subst this; simp [quoteLoop]
  | succ n ih =>
    intro s hs hb
    match s with
    | [] => simp [quoteLoop]
    | b :: rest =>
      obtain ⟨h1, h2, h3, h4⟩ := hb b (by simp)
      simp only [UInt8.le_iff_toNat_le, UInt8.lt_iff_toNat_lt, ← UInt8.toNat_inj, ne_eq] at h1 h2 h3 h4
      simp at h1 h2 h3 h4
      have hlt : b < 0x80 := by rw [UInt8.lt_iff_toNat_lt]; simp; omega
      have hd : decodeRune (b :: rest) = (b.toNat, 1) := by simp [decodeRune, hlt]
      rw [quoteLoop]
      simp only [hd]
      have hpr : isPrint b.toNat = true := by rw [hp _ (by omega)]; simp; omega
      simp only [escapedRune]
      rw [if_neg (by omega), if_neg (by omega), if_pos hpr]
      simp only [encodeRune]
      rw [if_pos (by omega)]
      simp
      exact ih rest (by simp at hs; omega) (fun x hx => hb x (List.mem_cons_of_mem _ hx))

theorem runesAux_ascii : ∀ (n : Nat) (s : GoString), s.length ≤ n → (∀ b ∈ s, b < 0x80) →
    (runesAux n s).length = s.length := by
  intro n
  induction n with
  | zero => intro s hs _; have : s = [] := List.length_eq_zero_iff.1 (by omega); subst this; simp [runesAux]
  | succ n ih =>
    intro s hs hb
    match s with
    | [] => simp [runesAux]
    | b :: rest =>
      have hlt := hb b (by simp)
      rw [runesAux]
      simp only [decodeRune, hlt, if_true, List.length_cons]
      rw [ih]
      · simp
      · simp at hs ⊢; omega
      · intro x hx; exact hb x (List.mem_cons_of_mem _ (by simpa using hx))

/-- A plain ASCII constant is quoted as it is. -/
theorem runes_quote_plain {isPrint : Nat → Bool} (hp : PrintsAscii isPrint) {s : GoString}
    (hb : ∀ b ∈ s, 32 ≤ b ∧ b < 127 ∧ b ≠ 34 ∧ b ≠ 92) :
    (runes (quote isPrint s)).length = s.length + 2 := by
  rw [quote, quoteLoop_plain hp _ _ (Nat.le_refl _) hb, runes, runesAux_ascii _ _ (Nat.le_refl _)]
  · simp
  · intro b h
    simp only [List.mem_append, List.mem_singleton] at h
    rcases h with (rfl | h) | rfl
    · decide
    · have := (hb b h).2.1
      rw [UInt8.lt_iff_toNat_lt] at this ⊢; simp at this ⊢; omega
    · decide

end Serum
