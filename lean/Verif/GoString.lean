/-!
# Go strings

Go strings are byte sequences.  The analyzer uses `strings.Split`, `strings.Index`,
`strings.HasPrefix`, `strings.TrimPrefix`, `strings.TrimSpace`, `strings.Join`, byte indexing and
`range` over runes.  These are standard-library functions; they are modelled here by their
documented behaviour, on arbitrary byte lists (no assumption of valid UTF-8).
-/

namespace Serum

deriving instance DecidableEq for Except

/-- A Go `string`: a finite byte sequence. -/
abbrev GoString := List UInt8

/-- `b!"text"` is the byte list of a string literal (UTF-8), expanded at elaboration time. -/
syntax:max "b!" str : term
macro_rules
  | `(b! $s:str) => do
    let bytes := s.getString.toUTF8.toList
    let elems ← bytes.mapM fun b => do
      let n := Lean.Syntax.mkNumLit (toString b.toNat)
      `(($n : UInt8))
    let elems := elems.toArray
    `(([$elems,*] : GoString))

namespace GoStr

/-- `strings.Split(s, sep)` for a one byte separator (the analyzer only splits at `"\n"`, `","`
and `" "`: find_error_docs.go:59, annotation.go:51, annotation.go:107, annotation.go:123). -/
def split (sep : UInt8) : GoString → List GoString
  | [] => [[]]
  | c :: cs =>
    if c = sep then [] :: split sep cs
    else match split sep cs with
      | [] => [[c]]
      | h :: t => (c :: h) :: t

/-- `strings.Join(parts, sep)`. -/
def join (sep : GoString) : List GoString → GoString
  | [] => []
  | [p] => p
  | p :: q :: ps => p ++ sep ++ join sep (q :: ps)

/-- `strings.HasPrefix(s, p)`. -/
def hasPrefix (s p : GoString) : Bool := p.isPrefixOf s

/-- `strings.TrimPrefix(s, p)`. -/
def trimPrefix (s p : GoString) : GoString := if hasPrefix s p then s.drop p.length else s

/-- `strings.Index(s, needle)`; Go's `-1` is `none`. -/
def index (needle : GoString) : GoString → Option Nat
  | [] => if needle.isEmpty then some 0 else none
  | c :: cs =>
    if needle.isPrefixOf (c :: cs) then some 0
    else (index needle cs).map (· + 1)

/-- The UTF-8 encodings of all code points for which `unicode.IsSpace` holds:
U+0009–U+000D, U+0020, U+0085, U+00A0, U+1680, U+2000–U+200A, U+2028, U+2029, U+202F, U+205F,
U+3000. -/
def spaceEncs : List GoString :=
  [[9], [10], [11], [12], [13], [32],
   [0xC2, 0x85], [0xC2, 0xA0], [0xE1, 0x9A, 0x80],
   [0xE2, 0x80, 0x80], [0xE2, 0x80, 0x81], [0xE2, 0x80, 0x82], [0xE2, 0x80, 0x83],
   [0xE2, 0x80, 0x84], [0xE2, 0x80, 0x85], [0xE2, 0x80, 0x86], [0xE2, 0x80, 0x87],
   [0xE2, 0x80, 0x88], [0xE2, 0x80, 0x89], [0xE2, 0x80, 0x8A],
   [0xE2, 0x80, 0xA8], [0xE2, 0x80, 0xA9], [0xE2, 0x80, 0xAF], [0xE2, 0x81, 0x9F],
   [0xE3, 0x80, 0x80]]

/-- Remove one of the byte sequences `encs` from the front, if one is a prefix. -/
def stripOne : List GoString → GoString → Option GoString
  | [], _ => none
  | e :: es, s => if e.isPrefixOf s then some (s.drop e.length) else stripOne es s

/-- Repeatedly remove `encs` from the front (`fuel` bounds the number of removals; the length of
the string always suffices because every encoding is non-empty). -/
def stripAll (encs : List GoString) : Nat → GoString → GoString
  | 0, s => s
  | n + 1, s => match stripOne encs s with
    | some t => stripAll encs n t
    | none => s

/-- `strings.TrimLeftFunc(s, unicode.IsSpace)`. `utf8.DecodeRune` yields a space rune exactly when
the encoding of that rune is a prefix. -/
def trimLeft (s : GoString) : GoString := stripAll spaceEncs s.length s

/-- `strings.TrimRightFunc(s, unicode.IsSpace)`. `utf8.DecodeLastRune` yields a space rune exactly
when the encoding of that rune is a suffix. -/
def trimRight (s : GoString) : GoString :=
  (stripAll (spaceEncs.map List.reverse) s.length s.reverse).reverse

/-- `strings.TrimSpace(s)`: all leading and trailing white space, as defined by Unicode, removed. -/
def trimSpace (s : GoString) : GoString := trimRight (trimLeft s)

/-- Continuation byte test of UTF-8. -/
def isCont (b : UInt8) : Bool := 0x80 ≤ b && b ≤ 0xBF

/-- `utf8.DecodeRune` on a non-empty string: the rune and its width; malformed encodings give
`(U+FFFD, 1)`. -/
def decodeRune : GoString → Nat × Nat
  | [] => (0xFFFD, 0)
  | b0 :: rest =>
    if b0 < 0x80 then (b0.toNat, 1)
    else if 0xC2 ≤ b0 && b0 ≤ 0xDF then
      match rest with
      | b1 :: _ => if isCont b1 then ((b0.toNat - 0xC0) * 64 + (b1.toNat - 0x80), 2) else (0xFFFD, 1)
      | _ => (0xFFFD, 1)
    else if 0xE0 ≤ b0 && b0 ≤ 0xEF then
      match rest with
      | b1 :: b2 :: _ =>
        let lo : UInt8 := if b0 = 0xE0 then 0xA0 else 0x80
        let hi : UInt8 := if b0 = 0xED then 0x9F else 0xBF
        if lo ≤ b1 && b1 ≤ hi && isCont b2 then
          ((b0.toNat - 0xE0) * 4096 + (b1.toNat - 0x80) * 64 + (b2.toNat - 0x80), 3)
        else (0xFFFD, 1)
      | _ => (0xFFFD, 1)
    else if 0xF0 ≤ b0 && b0 ≤ 0xF4 then
      match rest with
      | b1 :: b2 :: b3 :: _ =>
        let lo : UInt8 := if b0 = 0xF0 then 0x90 else 0x80
        let hi : UInt8 := if b0 = 0xF4 then 0x8F else 0xBF
        if lo ≤ b1 && b1 ≤ hi && isCont b2 && isCont b3 then
          ((b0.toNat - 0xF0) * 262144 + (b1.toNat - 0x80) * 4096 + (b2.toNat - 0x80) * 64
            + (b3.toNat - 0x80), 4)
        else (0xFFFD, 1)
      | _ => (0xFFFD, 1)
    else (0xFFFD, 1)

/-- The runes a `for _, c := range s` loop sees (`fuel` ≥ length suffices). -/
def runesAux : Nat → GoString → List Nat
  | 0, _ => []
  | _ + 1, [] => []
  | n + 1, b :: rest =>
    let (r, w) := decodeRune (b :: rest)
    r :: runesAux n (rest.drop (w - 1))

/-- The runes a `for _, c := range s` loop sees. -/
def runes (s : GoString) : List Nat := runesAux s.length s

end GoStr
end Serum
