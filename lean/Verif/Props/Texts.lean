import Verif.FactText
import Verif.ConstantLemmas
import Verif.GoStringLemmas
import Verif.CodeValid
import Verif.Props.Reports
import Verif.Props.RunCodes

/-!
# C45 — what is shown can be read back

Two facts, or two diagnostics, with the same text say the same.
-/

namespace Serum.Props.Texts
open Serum Serum.GoStr Reports CodeFormat

/-! ## Cutting a text -/

/-- A text is cut at the first occurrence of a byte in one way only. -/
theorem cut {b : UInt8} {x x' r r' : GoString} (hx : b ∉ x) (hx' : b ∉ x') (h : x ++ b :: r = x' ++ b :: r') :
    x = x' ∧ r = r' := by
  induction x generalizing x' with
  | nil =>
    cases x' with
    | nil => simpa using h
    | cons c x' => simp at h; simp [← h.1] at hx'
  | cons c x ih =>
    cases x' with
    | nil => simp at h; simp [h.1] at hx
    | cons d x' =>
      simp at h hx hx'
      obtain ⟨rfl, h⟩ := h
      obtain ⟨rfl, rfl⟩ := ih hx.2 hx'.2 h
      exact ⟨rfl, rfl⟩

/-! ## Lists of codes -/

/-- Nonempty and without the bytes that delimit codes in a text: space, `[`, `]` and `}`. -/
def Plain (c : GoString) : Prop := c ≠ [] ∧ 32 ∉ c ∧ 91 ∉ c ∧ 93 ∉ c ∧ 125 ∉ c

theorem plain_of_wellFormed {c : GoString} (h : WellFormed c) : Plain c := by
  have h2 : c ≠ [] ∧ ∀ b ∈ c, Letter b ∨ Digit b ∨ Dash b := by
    rcases h with ⟨a, m, z, rfl, ha, hm, hz⟩ | ⟨a, rfl, ha⟩
    · refine ⟨by simp, fun b hb => ?_⟩
      simp only [List.mem_cons, List.mem_append, List.not_mem_nil, or_false] at hb
      rcases hb with rfl | hb | rfl
      · exact .inl ha
      · exact hm _ hb
      · rcases hz with hz | hz
        · exact .inl hz
        · exact .inr (.inl hz)
    · refine ⟨by simp, fun b hb => ?_⟩
      simp only [List.mem_cons, List.not_mem_nil, or_false] at hb
      subst hb; exact .inl ha
  have hb : ∀ b : UInt8, b = 32 ∨ b = 91 ∨ b = 93 ∨ b = 125 → ¬ (Letter b ∨ Digit b ∨ Dash b) := by
    rintro b (rfl | rfl | rfl | rfl) <;> unfold Letter Digit Dash <;> decide
  exact ⟨h2.1, fun h => hb _ (.inl rfl) (h2.2 _ h), fun h => hb _ (.inr (.inl rfl)) (h2.2 _ h),
    fun h => hb _ (.inr (.inr (.inl rfl))) (h2.2 _ h), fun h => hb _ (.inr (.inr (.inr rfl))) (h2.2 _ h)⟩

theorem join_nil_iff {l : List GoString} (h : ∀ c ∈ l, Plain c) : join b!" " l = [] ↔ l = [] := by
  match l with
  | [] => simp [join]
  | [p] => simpa [join] using (h p (by simp)).1
  | p :: q :: ps => simp [join, (h p (by simp)).1]

/-- Codes joined by spaces are read back. -/
theorem join_inj {l l' : List GoString} (h : ∀ c ∈ l, Plain c) (h' : ∀ c ∈ l', Plain c)
    (e : join b!" " l = join b!" " l') : l = l' := by
  by_cases hn : l = []
  · subst hn
    exact ((join_nil_iff h').1 (by rw [← e]; rfl)).symm
  · have hn' : l' ≠ [] := by rintro rfl; exact hn ((join_nil_iff h).1 e)
    rw [← split_join 32 l hn (fun p hp => (h p hp).2.1), ← split_join 32 l' hn' (fun p hp => (h' p hp).2.1)]
    exact congrArg _ e

theorem mem_join {b : UInt8} (hb : b ≠ 32) {l : List GoString} (h : b ∈ join b!" " l) : ∃ c ∈ l, b ∈ c := by
  induction l with
  | nil => simp [join] at h
  | cons p l ih =>
    cases l with
    | nil => exact ⟨p, by simp, by simpa [join] using h⟩
    | cons q l =>
      simp only [join, List.mem_append] at h
      rcases h with (h | h) | h
      · exact ⟨p, by simp, h⟩
      · exact absurd (by simpa using h) hb
      · obtain ⟨c, hc, hbc⟩ := ih h
        exact ⟨c, by simp [hc], hbc⟩

theorem close_not_mem {l : List GoString} (h : ∀ c ∈ l, Plain c) : 93 ∉ join b!" " l := by
  intro hm
  obtain ⟨c, hc, hbc⟩ := mem_join (by decide) hm
  exact (h c hc).2.2.2.1 hbc

theorem brace_not_mem {l : List GoString} (h : ∀ c ∈ l, Plain c) : 125 ∉ join b!" " l := by
  intro hm
  obtain ⟨c, hc, hbc⟩ := mem_join (by decide) hm
  exact (h c hc).2.2.2.2 hbc

/-- A list in brackets, followed by anything, is read back. -/
theorem slice_read {l l' : List GoString} {r r' : GoString} (h : ∀ c ∈ l, Plain c) (h' : ∀ c ∈ l', Plain c)
    (e : sliceText l ++ r = sliceText l' ++ r') : l = l' ∧ r = r' := by
  have e2 : join b!" " l ++ (93 :: r) = join b!" " l' ++ (93 :: r') := by
    simpa [sliceText] using e
  obtain ⟨h1, h2⟩ := cut (close_not_mem h) (close_not_mem h') e2
  exact ⟨join_inj h h' h1, h2⟩

/-! ## Quoted names -/

/-- One character of a quoted text. -/
theorem quote_step (isPrint : Nat → Bool) (n : Nat) {s : GoString} (hs : s ≠ []) (hn : s.length ≤ n + 1) :
    ∃ out rest, s = out ++ rest ∧ rest.length ≤ n ∧ ∀ t,
      unquoteChar (quoteLoop isPrint (n + 1) s ++ t) = some (out, quoteLoop isPrint n rest ++ t) := by
  match s with
  | [] => exact absurd rfl hs
  | b :: rest =>
    simp only [List.length_cons] at hn
    by_cases hbad : (decodeRune (b :: rest)).2 = 1 ∧ (decodeRune (b :: rest)).1 = 0xFFFD
    · refine ⟨[b], rest, rfl, by omega, fun t => ?_⟩
      rw [quoteLoop]
      simp only [if_pos hbad]
      have hb : b.toNat < 16 ^ 2 := by have := b.toNat_lt; omega
      simp [unquoteChar, readHex_hexDigits (k := 2) hb]
    · have d := decoded b rest hbad
      refine ⟨(b :: rest).take (decodeRune (b :: rest)).2, (b :: rest).drop (decodeRune (b :: rest)).2,
        (List.take_append_drop _ _).symm, ?_, fun t => ?_⟩
      · have := d.pos
        simp only [List.length_drop, List.length_cons]; omega
      · rw [quoteLoop]
        simp only [if_neg hbad]
        have hw : rest.drop ((decodeRune (b :: rest)).2 - 1) = (b :: rest).drop (decodeRune (b :: rest)).2 := by
          have hw := d.pos
          cases hd : (decodeRune (b :: rest)).2 with
          | zero => omega
          | succ w => simp
        rw [List.append_assoc, unquoteChar_escaped isPrint d, hw]

theorem quoteLoop_read (isPrint : Nat → Bool) : ∀ (n n' : Nat) (s s' t t' : GoString), s.length ≤ n → s'.length ≤ n' →
    quoteLoop isPrint n s ++ 34 :: t = quoteLoop isPrint n' s' ++ 34 :: t' → s = s' ∧ t = t' := by
  have stop : ∀ t, unquoteChar (34 :: t) = none := by intro t; simp [unquoteChar]
  have nilq : ∀ n, quoteLoop isPrint n [] = [] := by intro n; cases n <;> rfl
  intro n
  induction n with
  | zero =>
    intro n' s s' t t' hs hs' e
    have : s = [] := List.length_eq_zero_iff.1 (by omega)
    subst this
    rw [nilq] at e
    by_cases hn : s' = []
    · subst hn; rw [nilq] at e; simpa using e
    · cases n' with
      | zero => exact absurd (List.length_eq_zero_iff.1 (by omega)) hn
      | succ n' =>
        obtain ⟨o, r, -, -, h⟩ := quote_step isPrint n' hn hs'
        rw [List.nil_append] at e
        have := h (34 :: t')
        rw [← e, stop] at this; cases this
  | succ n ih =>
    intro n' s s' t t' hs hs' e
    by_cases hn : s = []
    · subst hn
      rw [nilq] at e
      by_cases hn : s' = []
      · subst hn; rw [nilq] at e; simpa using e
      · cases n' with
        | zero => exact absurd (List.length_eq_zero_iff.1 (by omega)) hn
        | succ n' =>
          obtain ⟨o, r, -, -, h⟩ := quote_step isPrint n' hn hs'
          rw [List.nil_append] at e
          have := h (34 :: t')
          rw [← e, stop] at this; cases this
    · obtain ⟨o, r, h1, h2, h3⟩ := quote_step isPrint n hn hs
      by_cases hn' : s' = []
      · subst hn'
        rw [nilq, List.nil_append] at e
        have := h3 (34 :: t)
        rw [e, stop] at this; cases this
      · cases n' with
        | zero => exact absurd (List.length_eq_zero_iff.1 (by omega)) hn'
        | succ n' =>
          obtain ⟨o', r', h1', h2', h3'⟩ := quote_step isPrint n' hn' hs'
          have h4 := h3 (34 :: t)
          rw [e, h3'] at h4
          simp only [Option.some.injEq, Prod.mk.injEq] at h4
          obtain ⟨e1, e2⟩ := ih n' r r' t t' h2 h2' h4.2.symm
          exact ⟨by rw [h1, h1', e1, h4.1], e2⟩

/-- A quoted name, followed by anything, is read back. -/
theorem quote_read (isPrint : Nat → Bool) {s s' r r' : GoString} (e : quote isPrint s ++ r = quote isPrint s' ++ r') :
    s = s' ∧ r = r' := by
  refine quoteLoop_read isPrint _ _ s s' r r' (Nat.le_refl _) (Nat.le_refl _) ?_
  simpa [quote] using e

/-! ## Numbers -/

/-- The value of a decimal text. -/
def decimalValue (s : GoString) : Nat := s.foldl (fun v b => v * 10 + (b.toNat - 48)) 0

theorem decimal_value (n : Nat) : decimalValue (decimal n) = n := by
  induction n using Nat.strongRecOn with
  | _ n ih =>
    rw [decimal]
    split
    · rename_i h
      simp [decimalValue]; omega
    · rename_i h
      rw [decimalValue, List.foldl_append, ← decimalValue, ih _ (by omega)]
      simp; omega

theorem decimal_digits (n : Nat) : ∀ b ∈ decimal n, Digit b := by
  induction n using Nat.strongRecOn with
  | _ n ih =>
    have dig : ∀ m < 10, Digit (UInt8.ofNat (48 + m)) := by unfold Digit; decide
    rw [decimal]
    split
    · rename_i h
      intro b hb
      simp only [List.mem_cons, List.not_mem_nil, or_false] at hb
      subst hb; exact dig _ h
    · intro b hb
      simp only [List.mem_append, List.mem_cons, List.not_mem_nil, or_false] at hb
      rcases hb with hb | rfl
      · exact ih _ (by omega) b hb
      · exact dig _ (Nat.mod_lt _ (by decide))

theorem decimal_read {n n' : Nat} {r r' : GoString} (e : decimal n ++ 125 :: r = decimal n' ++ 125 :: r') : n = n' ∧ r = r' := by
  have hn : ∀ m, (125 : UInt8) ∉ decimal m := fun m h => absurd (decimal_digits m _ h) (by unfold Digit; decide)
  obtain ⟨h1, h2⟩ := cut (hn n) (hn n') e
  exact ⟨by rw [← decimal_value n, h1, decimal_value], h2⟩

/-! ## The texts -/

/-- **C45.** From the text of a mismatch the missing and the unused codes can be read. -/
theorem mismatch_readable {missing unused missing' unused' : List GoString} (h : ∀ c, c ∈ missing ∨ c ∈ unused → Plain c)
    (h' : ∀ c, c ∈ missing' ∨ c ∈ unused' → Plain c) (e : mismatchText missing unused = mismatchText missing' unused') :
    missing = missing' ∧ unused = unused' := by
  have hm := fun c hc => h c (.inl hc)
  have hu := fun c hc => h c (.inr hc)
  have hm' := fun c hc => h' c (.inl hc)
  have hu' := fun c hc => h' c (.inr hc)
  unfold mismatchText at e
  by_cases h1 : missing = [] <;> by_cases h2 : unused = [] <;> by_cases h3 : missing' = [] <;> by_cases h4 : unused' = [] <;>
    simp only [h1, h2, h3, h4, if_true, if_false, List.append_nil, List.nil_append, join, List.cons_append, List.append_assoc,
      reduceCtorEq, List.append_cancel_left_eq] at e ⊢
  all_goals try simp at e
  all_goals try simp
  · exact (slice_read (r := []) (r' := []) hu hu' (by simpa using e)).1
  · exact (slice_read (r := []) (r' := []) hm hm' (by simpa using e)).1
  · exact absurd (slice_read (r := []) hm hm' (by simpa using e)).2 (by simp)
  · exact absurd (slice_read (r' := []) hm hm' (by simpa using e)).2 (by simp)
  · obtain ⟨a, b⟩ := slice_read hm hm' e
    exact ⟨a, (slice_read (r := []) (r' := []) hu hu' (by simpa using b)).1⟩

/-- **C45.** … and in the whole diagnostic, the function; likewise for embedded interfaces. -/
theorem function_mismatch_readable (isPrint : Nat → Bool) {name name' : GoString} {missing unused missing' unused' : List GoString}
    (h : ∀ c, c ∈ missing ∨ c ∈ unused → Plain c) (h' : ∀ c, c ∈ missing' ∨ c ∈ unused' → Plain c) :
    (functionMismatchText isPrint name (mismatchText missing unused) = functionMismatchText isPrint name' (mismatchText missing' unused') →
      name = name' ∧ missing = missing' ∧ unused = unused') ∧
    (embeddedMismatchText isPrint name (mismatchText missing unused) = embeddedMismatchText isPrint name' (mismatchText missing' unused') →
      name = name' ∧ missing = missing' ∧ unused = unused') := by
  constructor <;> intro e
  · simp only [functionMismatchText, List.append_assoc, List.append_cancel_left_eq] at e
    obtain ⟨rfl, e'⟩ := quote_read isPrint e
    exact ⟨rfl, mismatch_readable h h' (List.append_cancel_left e')⟩
  · simp only [embeddedMismatchText, List.append_assoc, List.append_cancel_left_eq] at e
    obtain ⟨rfl, e'⟩ := quote_read isPrint e
    exact ⟨rfl, mismatch_readable h h' (List.append_cancel_left e')⟩

/-- **C45.** From the text of a report about a conversion the interface, the method and the codes can be read. -/
theorem conversion_readable (isPrint : Nat → Bool) {i i' m m' : GoString} {codes codes' : List GoString}
    (h : ∀ c ∈ codes, Plain c) (h' : ∀ c ∈ codes', Plain c)
    (e : conversionText isPrint i m codes = conversionText isPrint i' m' codes') : i = i' ∧ m = m' ∧ codes = codes' := by
  simp only [conversionText, List.append_assoc, List.append_cancel_left_eq] at e
  obtain ⟨rfl, e'⟩ := quote_read isPrint e
  obtain ⟨rfl, e''⟩ := quote_read isPrint (List.append_cancel_left e')
  have e := List.append_cancel_left e''
  exact ⟨rfl, rfl, (slice_read (r := []) (r' := []) h h' (by simpa using e)).1⟩

/-! ## What stands where

The reading above is unambiguous; here it is said which part of a text is what. -/

/-- `s` is the first quoted string in `text`, and `rest` is what follows. -/
def Quotes (isPrint : Nat → Bool) (text s rest : GoString) : Prop := ∃ p, (34 : UInt8) ∉ p ∧ text = p ++ quote isPrint s ++ rest

/-- The first quoted string is unique. -/
theorem Quotes.unique {isPrint : Nat → Bool} {text s s' r r' : GoString} (h : Quotes isPrint text s r) (h' : Quotes isPrint text s' r') :
    s = s' ∧ r = r' := by
  obtain ⟨p, hp, e⟩ := h
  obtain ⟨p', hp', e'⟩ := h'
  rw [e] at e'
  have e2 : p ++ 34 :: ((quote isPrint s).tail ++ r) = p' ++ 34 :: ((quote isPrint s').tail ++ r') := by
    simpa [quote] using e'
  obtain ⟨-, h2⟩ := cut hp hp' e2
  refine quote_read isPrint ?_
  show 34 :: ((quote isPrint s).tail ++ r) = 34 :: ((quote isPrint s').tail ++ r')
  rw [h2]

/-- **C45.** The first name in a report about a conversion is that of the interface, the second is that of the method, and the codes
stand at the end. -/
theorem conversion_says (isPrint : Nat → Bool) (i m : GoString) (codes : List GoString) :
    ∃ r r', Quotes isPrint (conversionText isPrint i m codes) i r ∧ Quotes isPrint r m r' ∧ ∃ p, r' = p ++ b!": " ++ sliceText codes := by
  refine ⟨_, b!" declares the following error codes which were not part of the interface" ++ b!": " ++ sliceText codes,
    ⟨b!"cannot use expression as ", by decide +kernel, ?_⟩, ⟨b!" value: method ", by decide +kernel, rfl⟩, ⟨_, rfl⟩⟩
  simp only [conversionText, List.append_assoc]; rfl

/-- **C45.** The name in a report about a declaration is that of the function (of the method, for embedded interfaces), and the codes
stand at the end. -/
theorem mismatch_names (isPrint : Nat → Bool) (name message : GoString) :
    (∃ r p, Quotes isPrint (functionMismatchText isPrint name message) name r ∧ r = p ++ b!": " ++ message) ∧
    ∃ r p, Quotes isPrint (embeddedMismatchText isPrint name message) name r ∧ r = p ++ b!": " ++ message := by
  refine ⟨⟨_, b!" has a mismatch of declared and actual error codes", ⟨b!"function ", by decide +kernel, ?_⟩, rfl⟩,
    ⟨_, b!" has mismatches in declared error codes", ⟨b!"embedded interface is not compatible: method ", by decide +kernel, ?_⟩, rfl⟩⟩
  · simp only [functionMismatchText, List.append_assoc]; rfl
  · simp only [embeddedMismatchText, List.append_assoc]; rfl

/-- **C45.** Missing codes are listed as missing and unused codes as unused; empty lists are not mentioned. -/
theorem mismatch_says (missing unused : List GoString) :
    (missing ≠ [] → unused ≠ [] →
      mismatchText missing unused = b!"missing codes: " ++ sliceText missing ++ b!" unused codes: " ++ sliceText unused) ∧
    (missing ≠ [] → mismatchText missing [] = b!"missing codes: " ++ sliceText missing) ∧
    (unused ≠ [] → mismatchText [] unused = b!"unused codes: " ++ sliceText unused) := by
  refine ⟨fun h1 h2 => ?_, fun h1 => ?_, fun h2 => ?_⟩ <;> simp [mismatchText, join, *]

/-- **C45.** From the text of an `ErrorCodes` fact the codes can be read, from that of an `ErrorInterface` fact the names of the
methods, and from a code set's text the codes. -/
theorem codes_readable {slice slice' : CodeSet → List GoString} (hs : IsOrder slice) (hs' : IsOrder slice') {a b : CodeSet}
    (h : ∀ c ∈ a, Plain c) (h' : ∀ c ∈ b, Plain c) :
    (errorCodesText slice a = errorCodesText slice' b → ∀ c, c ∈ a ↔ c ∈ b) ∧
    (errorInterfaceText slice a = errorInterfaceText slice' b → ∀ c, c ∈ a ↔ c ∈ b) ∧
    (codeSetText slice a = codeSetText slice' b → ∀ c, c ∈ a ↔ c ∈ b) := by
  have p : ∀ (sl : CodeSet → List GoString), IsOrder sl → ∀ x : CodeSet, (sortStrings (sl x)).Perm x :=
    fun sl hsl x => (sortStrings_perm _).trans (hsl x)
  have q : ∀ {l l' : List GoString}, l.Perm a → l'.Perm b → join b!" " l = join b!" " l' → ∀ c, c ∈ a ↔ c ∈ b := by
    intro l l' hl hl' e c
    have := join_inj (fun c hc => h c (hl.mem_iff.1 hc)) (fun c hc => h' c (hl'.mem_iff.1 hc)) e
    rw [← hl.mem_iff, ← hl'.mem_iff, this]
  refine ⟨fun e => ?_, fun e => ?_, fun e => ?_⟩
  · exact q (p _ hs a) (p _ hs' b) (List.append_cancel_left e)
  · exact q (p _ hs a) (p _ hs' b) (List.append_cancel_left e)
  · simp only [codeSetText, List.append_assoc, List.append_cancel_left_eq] at e
    exact q (hs a) (hs' b) (List.append_cancel_right e)

/-- **C45.** From the text of an `ErrorConstructor` fact the position can be read. -/
theorem constructor_readable {n n' : Nat} (e : errorConstructorText n = errorConstructorText n') : n = n' := by
  simp only [errorConstructorText, List.append_assoc, List.append_cancel_left_eq] at e
  exact (decimal_read (r := []) (r' := []) e).1

/-- **C45.** From the text of an `ErrorType` fact its field (name and position, or none) and its codes can be read. -/
theorem error_type_readable (isPrint : Nat → Bool) {t t' : ErrorType} (h : ∀ c ∈ t.codes, Plain c) (h' : ∀ c ∈ t'.codes, Plain c)
    (e : (errorTypeText isPrint t).1 = (errorTypeText isPrint t').1) :
    t.field = t'.field ∧ t.codes.Perm t'.codes := by
  have tail : ∀ {l l' : List GoString}, (∀ c ∈ l, Plain c) → (∀ c ∈ l', Plain c) →
      b!", Codes:" ++ (join b!" " (sortStrings l) ++ b!"}") = b!", Codes:" ++ (join b!" " (sortStrings l') ++ b!"}") → l.Perm l' := by
    intro l l' hl hl' e
    have := join_inj (fun c hc => hl c ((sortStrings_perm l).mem_iff.1 hc)) (fun c hc => hl' c ((sortStrings_perm l').mem_iff.1 hc))
      (List.append_cancel_right (List.append_cancel_left e))
    exact (sortStrings_perm l).symm.trans (this ▸ sortStrings_perm l')
  simp only [errorTypeText, List.append_assoc, List.append_cancel_left_eq] at e
  cases hf : t.field with
  | none =>
    cases hf' : t'.field with
    | none =>
      rw [hf, hf'] at e
      exact ⟨rfl, tail h h' (List.append_cancel_left e)⟩
    | some g =>
      rw [hf, hf'] at e
      simp [optionalFieldText, errorCodeFieldText] at e
  | some f =>
    cases hf' : t'.field with
    | none =>
      rw [hf, hf'] at e
      simp [optionalFieldText, errorCodeFieldText] at e
    | some g =>
      rw [hf, hf'] at e
      simp only [optionalFieldText, errorCodeFieldText, List.append_assoc, List.append_cancel_left_eq] at e
      obtain ⟨hn, e⟩ := quote_read isPrint e
      obtain ⟨hp, e⟩ := decimal_read (List.append_cancel_left e)
      refine ⟨?_, tail h h' e⟩
      cases f; cases g; simp_all

/-- **C13.** The text of an `ErrorType` fact depends only on its field and on its codes as a set; showing the fact sorts its codes and
changes nothing else, so showing it again shows the same. -/
theorem error_type_text_deterministic (isPrint : Nat → Bool) (t : ErrorType) :
    (∀ t' : ErrorType, t.field = t'.field → t.codes.Perm t'.codes → (errorTypeText isPrint t).1 = (errorTypeText isPrint t').1) ∧
    (errorTypeText isPrint t).2.field = t.field ∧ (errorTypeText isPrint t).2.codes.Perm t.codes ∧
    errorTypeText isPrint (errorTypeText isPrint t).2 = errorTypeText isPrint t := by
  refine ⟨fun t' hf hp => ?_, rfl, sortStrings_perm _, ?_⟩
  · simp only [errorTypeText, hf, sortStrings_congr hp]
  · simp only [errorTypeText]
    rw [sortStrings_congr (sortStrings_perm t.codes)]

/-- A code set's own text depends on the iteration order (it is only used for debugging). -/
theorem set_text_order_dependent : ∃ (s s' : CodeSet → List GoString) (a : CodeSet), IsOrder s ∧ IsOrder s' ∧
    codeSetText s a ≠ codeSetText s' a :=
  ⟨id, List.reverse, [b!"a", b!"b"], fun s => .refl s, fun s => List.reverse_perm s, by decide +kernel⟩

theorem found_wf {P : Package} {S : Schedule} {strict : Bool} {out : Outcome} {s : Stages} (hr : Ran P S strict s out) (hS : S.Fair)
    (ho : RunSpec.Objects P) (hp : Interfaces.Program P.ifaces) (ha : PrintsAscii P.env.isPrint) (hw : Run.AllWellFormed P.env.facts)
    {f : FnId} {C : CodeSet} (hC : (f, C) ∈ s.found) : ∀ c ∈ C, WellFormed c := by
  have hout := Run.exported_wellFormed (ran_iff.2 ⟨s, hr⟩) hS ho hp ha hw
  have hfacts : Run.AllWellFormed s.facts := by
    rw [Run.facts_during hr hS ho hp]
    refine ⟨fun o C hC => ?_, hout.types, hout.interfaces⟩
    unfold RunSpec.during at hC
    dsimp only at hC
    split at hC
    · cases hC
    · exact hout.codes o C hC
  exact (Bodies.found_wellFormed (P.at_ s.facts) ha ⟨hfacts.codes, hfacts.types⟩ P.depth _ _ _ _ hr.search).1 f C hC

/-- **C45**, for whole runs: two mismatches reported in two runs, on whatever packages, with the same text list the same missing and
unused codes. -/
theorem run_mismatches_readable {P P' : Package} {S S' : Schedule} {strict strict' : Bool} {out out' : Outcome}
    (h : runVerify P S strict = .ok out) (hS : S.Fair) (ho : RunSpec.Objects P) (hp : Interfaces.Program P.ifaces)
    (ha : PrintsAscii P.env.isPrint) (hw : Run.AllWellFormed P.env.facts)
    (h' : runVerify P' S' strict' = .ok out') (hS' : S'.Fair) (ho' : RunSpec.Objects P') (hp' : Interfaces.Program P'.ifaces)
    (ha' : PrintsAscii P'.env.isPrint) (hw' : Run.AllWellFormed P'.env.facts)
    {f f' : FnId} {text : GoString} (hm : (f, text) ∈ out.mismatches) (hm' : (f', text) ∈ out'.mismatches) :
    ∃ missing unused, text = mismatchText missing unused ∧
      (∃ c C, RunSpec.Compared P f c ∧ ListsDifference missing C c.codes ∧ ListsDifference unused c.codes C) ∧
      (∃ c C, RunSpec.Compared P' f' c ∧ ListsDifference missing C c.codes ∧ ListsDifference unused c.codes C) := by
  obtain ⟨s, hr⟩ := ran_iff.1 h
  obtain ⟨s', hr'⟩ := ran_iff.1 h'
  obtain ⟨c, C, m, u, hc, hC, lm, lu, -, rfl⟩ := ((Run.mismatches_found hr hS ho).1 _ _).1 hm
  obtain ⟨c', C', m', u', hc', hC', lm', lu', -, e⟩ := ((Run.mismatches_found hr' hS' ho').1 _ _).1 hm'
  have wf : ∀ {P : Package} {f : FnId} {c : FuncCodes} {C : CodeSet} {m u : List GoString}, RunSpec.Compared P f c → (∀ x ∈ C, WellFormed x) →
      RunSpec.Lists m (fun x => x ∈ C ∧ x ∉ c.codes) → RunSpec.Lists u (fun x => x ∈ c.codes ∧ x ∉ C) → ∀ x, x ∈ m ∨ x ∈ u → Plain x := by
    intro P f c C m u hc hC lm lu x hx
    rcases hx with hx | hx
    · exact plain_of_wellFormed (hC x ((lm.2.2 x).1 hx).1)
    · exact plain_of_wellFormed (Run.compared_wf hc x ((lu.2.2 x).1 hx).1)
  obtain ⟨rfl, rfl⟩ := mismatch_readable (wf hc (found_wf hr hS ho hp ha hw hC) lm lu)
    (wf hc' (found_wf hr' hS' ho' hp' ha' hw' hC') lm' lu') e
  exact ⟨m, u, rfl, ⟨c, C, hc, lm, lu⟩, ⟨c', C', hc', lm', lu'⟩⟩

-- Non-vacuity: the texts of a few facts and diagnostics.
example : errorConstructorText 10 = b!"ErrorConstructor: {CodeParamPosition:10}" ∧
    (errorTypeText (fun _ => true) ⟨[b!"b", b!"a"], some ⟨b!"TheCode", 2⟩⟩).1 =
      b!"ErrorType{Field:{Name:\"TheCode\", Position:2}, Codes:a b}" ∧
    (errorTypeText (fun _ => true) ⟨[b!"a"], none⟩).1 = b!"ErrorType{Field:<nil>, Codes:a}" ∧
    conversionText (fun _ => true) b!"I" b!"M" [b!"a", b!"b"] =
      b!"cannot use expression as \"I\" value: method \"M\" declares the following error codes which were not part of the interface: [a b]" ∧
    functionMismatchText (fun _ => true) b!"F" (mismatchText [b!"a"] [b!"b"]) =
      b!"function \"F\" has a mismatch of declared and actual error codes: missing codes: [a] unused codes: [b]" ∧
    (∀ c ∈ [b!"a", b!"unknown-code-2"], Plain c) := by
  refine ⟨by decide +kernel, by decide +kernel, by decide +kernel, by decide +kernel, by decide +kernel, ?_⟩
  unfold Plain; decide +kernel

example : embeddedMismatchText (fun _ => true) b!"Get" (mismatchText [b!"a"] []) =
      b!"embedded interface is not compatible: method \"Get\" has mismatches in declared error codes: missing codes: [a]" ∧
    codeSetText id [b!"b", b!"a"] = b!"set[b a]" ∧ codeSetText id [] = b!"set[]" ∧
    errorInterfaceText id [b!"b", b!"a"] = b!"ErrorInterface: a b" ∧
    runes b!"äö!" = [228, 246, 33] := by
  refine ⟨by decide +kernel, by decide +kernel, by decide +kernel, by decide +kernel, by decide +kernel⟩

/-- A long constant is shown as its first 69 characters (the quote included) and an ellipsis. -/
example : constantString (fun _ => true) (List.replicate 100 97) = 34 :: List.replicate 68 97 ++ [46, 46, 46] ∧
    constantString (fun _ => true) (List.replicate 70 97) = 34 :: List.replicate 70 97 ++ [34] := by
  refine ⟨by decide +kernel, by decide +kernel⟩

/-- Codes with spaces could not be told apart: that codes are well-formed matters. -/
theorem needs_plain : mismatchText [b!"a b"] [] = mismatchText [b!"a", b!"b"] [] := by decide +kernel

end Serum.Props.Texts
