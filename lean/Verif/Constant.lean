import Verif.Ast

/-!
# Constants as error codes (`getErrorCodeFromConstant`, analysis/extract_error_code.go:173-195)

The code obtains the text of a string constant as `strconv.Unquote(value.String())`.  `String` of
`go/constant` quotes the string and *shortens* it ("String returns a short, quoted (human-readable)
form of the value"), so both library functions are modelled here, for the strings that can occur.
-/

namespace Serum
open GoStr

/-- A lower case hexadecimal digit (`lowerhex[n]` of strconv). -/
def hexDigit (n : Nat) : UInt8 := UInt8.ofNat (if n < 10 then 48 + n else 87 + n)

/-- `n` as `k` hexadecimal digits. -/
def hexDigits : Nat → Nat → GoString
  | 0, _ => []
  | k + 1, n => hexDigits k (n / 16) ++ [hexDigit (n % 16)]

/-- `utf8.AppendRune` on valid runes. -/
def encodeRune (r : Nat) : GoString :=
  if r < 0x80 then [UInt8.ofNat r]
  else if r < 0x800 then [UInt8.ofNat (0xC0 + r / 64), UInt8.ofNat (0x80 + r % 64)]
  else if r < 0x10000 then
    [UInt8.ofNat (0xE0 + r / 4096), UInt8.ofNat (0x80 + r / 64 % 64), UInt8.ofNat (0x80 + r % 64)]
  else
    [UInt8.ofNat (0xF0 + r / 262144), UInt8.ofNat (0x80 + r / 4096 % 64),
     UInt8.ofNat (0x80 + r / 64 % 64), UInt8.ofNat (0x80 + r % 64)]

/-- strconv `appendEscapedRune(buf, r, '"', false, false)`, for runes that were decoded (hence valid). -/
def escapedRune (isPrint : Nat → Bool) (r : Nat) : GoString :=
  if r = 34 ∨ r = 92 then [92, UInt8.ofNat r]
  else if isPrint r then encodeRune r
  else if r = 7 then [92, 97]
  else if r = 8 then [92, 98]
  else if r = 12 then [92, 102]
  else if r = 10 then [92, 110]
  else if r = 13 then [92, 114]
  else if r = 9 then [92, 116]
  else if r = 11 then [92, 118]
  else if r < 32 ∨ r = 127 then [92, 120] ++ hexDigits 2 r
  else if r < 0x10000 then [92, 117] ++ hexDigits 4 r
  else [92, 85] ++ hexDigits 8 r

/-- The loop of strconv `appendQuotedWith` (`fuel` ≥ length suffices). -/
def quoteLoop (isPrint : Nat → Bool) : Nat → GoString → GoString
  | 0, _ => []
  | _ + 1, [] => []
  | n + 1, b :: rest =>
    let (r, w) := decodeRune (b :: rest)
    if w = 1 ∧ r = 0xFFFD then [92, 120] ++ hexDigits 2 b.toNat ++ quoteLoop isPrint n rest
    else escapedRune isPrint r ++ quoteLoop isPrint n (rest.drop (w - 1))

/-- `strconv.Quote`. -/
def quote (isPrint : Nat → Bool) (s : GoString) : GoString :=
  [34] ++ quoteLoop isPrint s.length s ++ [34]

/-- The first `n` runes of a string (the loop of go/constant `stringVal.String`). -/
def takeRunes : Nat → GoString → GoString
  | 0, _ => []
  | n + 1, s => s.take (decodeRune s).2 ++ takeRunes n (s.drop (decodeRune s).2)

/-- go/constant `stringVal.String`: quoted, and shortened to 72 runes. -/
def constantString (isPrint : Nat → Bool) (s : GoString) : GoString :=
  let q := quote isPrint s
  if (runes q).length > 72 then takeRunes 69 q ++ [46, 46, 46] else q

/-- The value of a hexadecimal digit (strconv `unhex`). -/
def unhex (b : UInt8) : Option Nat :=
  if 48 ≤ b ∧ b ≤ 57 then some (b.toNat - 48)
  else if 97 ≤ b ∧ b ≤ 102 then some (b.toNat - 97 + 10)
  else if 65 ≤ b ∧ b ≤ 70 then some (b.toNat - 65 + 10)
  else none

/-- Reads `k` hexadecimal digits: their value and the rest. -/
def readHex : Nat → Nat → GoString → Option (Nat × GoString)
  | 0, v, s => some (v, s)
  | _ + 1, _, [] => none
  | k + 1, v, b :: s => match unhex b with
    | some d => readHex k (v * 16 + d) s
    | none => none

/-- strconv `UnquoteChar(s, '"')` followed by appending the character: the bytes appended and the
rest.  (Octal escapes never occur in the output of `Quote` and are rejected here.) -/
def unquoteChar : GoString → Option (GoString × GoString)
  | [] => none
  | c :: s =>
    if c = 34 then none
    else if 0x80 ≤ c then
      let (r, w) := decodeRune (c :: s)
      some (encodeRune r, (c :: s).drop w)
    else if c ≠ 92 then some ([c], s)
    else match s with
      | [] => none
      | e :: s =>
        if e = 97 then some ([7], s)
        else if e = 98 then some ([8], s)
        else if e = 102 then some ([12], s)
        else if e = 110 then some ([10], s)
        else if e = 114 then some ([13], s)
        else if e = 116 then some ([9], s)
        else if e = 118 then some ([11], s)
        else if e = 120 then (readHex 2 0 s).map fun (v, s) => ([UInt8.ofNat v], s)
        else if e = 117 ∨ e = 85 then
          match readHex (if e = 117 then 4 else 8) 0 s with
          | some (v, s) => if v > 0x10FFFF then none else some (encodeRune v, s)
          | none => none
        else if e = 92 then some ([92], s)
        else if e = 34 then some ([34], s)
        else none

/-- The loop of `strconv.Unquote` on the text between the quotes. -/
def unquoteLoop : Nat → GoString → Option GoString
  | _, [] => some []
  | 0, _ => none
  | n + 1, s => match unquoteChar s with
    | some (out, rest) => (unquoteLoop n rest).map (out ++ ·)
    | none => none

/-- `strconv.Unquote` for strings starting with a double quote (others never occur here). -/
def unquote (s : GoString) : Option GoString :=
  match s with
  | 34 :: t =>
    match t.reverse with
    | 34 :: m => if 10 ∈ m then none else unquoteLoop m.length m.reverse
    | _ => none
  | _ => none

/-- extract_error_code.go:173-195 `getErrorCodeFromConstant`: `none` is an error. -/
def getErrorCodeFromConstant (isPrint : Nat → Bool) : Const → Option GoString
  | .other => none
  | .str s =>
    match unquote (constantString isPrint s) with
    | none => none
    | some result => if result ≠ [] then (if isErrorCodeValid result then some result else none) else some result

/-- extract_error_code.go:173-195: the error of `getErrorCodeFromConstant`, for the constants for which there is one. -/
def constantError (isPrint : Nat → Bool) : Const → ConstError
  | .other => .notString
  | .str s => if unquote (constantString isPrint s) = none then .unquoting else .format

end Serum
