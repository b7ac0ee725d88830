import Verif.GoString

/-!
# White space, as Unicode defines it

Independent of the table of byte sequences in `GoString.lean`: code points and their UTF-8 encodings.
-/

namespace Serum.Space

/-- The code points for which Go's `unicode.IsSpace` holds (documented: `'\t', '\n', '\v', '\f', '\r', ' ', U+0085 (NEL),
U+00A0 (NBSP)` and category Z with property `White_Space`). -/
def IsSpace (r : Nat) : Prop :=
  (9 ≤ r ∧ r ≤ 13) ∨ r = 0x20 ∨ r = 0x85 ∨ r = 0xA0 ∨ r = 0x1680 ∨ (0x2000 ≤ r ∧ r ≤ 0x200A) ∨ r = 0x2028 ∨ r = 0x2029 ∨
    r = 0x202F ∨ r = 0x205F ∨ r = 0x3000

/-- The UTF-8 encoding of a code point of at most three bytes. -/
def utf8 (r : Nat) : GoString :=
  if r < 2 ^ 7 then [UInt8.ofNat r]
  else if r < 2 ^ 11 then [UInt8.ofNat (192 + r / 2 ^ 6), UInt8.ofNat (128 + r % 2 ^ 6)]
  else [UInt8.ofNat (224 + r / 2 ^ 12), UInt8.ofNat (128 + r / 2 ^ 6 % 2 ^ 6), UInt8.ofNat (128 + r % 2 ^ 6)]

/-- A sequence of white space characters. -/
inductive White : GoString → Prop where
  | nil : White []
  | cons {r w} : IsSpace r → White w → White (utf8 r ++ w)

/-- Neither the first nor the last character is white space. -/
def Tight (s : GoString) : Prop := ∀ r, IsSpace r → ¬ utf8 r <+: s ∧ ¬ utf8 r <:+ s

end Serum.Space
