import Verif.Constant

/-! # Specification: why a constant is refused as an error code -/

namespace Serum

/-- What a message about a constant that is no code complains about: that it is no string, that it is too long (its quoted text has more
than 72 runes; the message calls this a problem with unquoting), or its format. -/
inductive Because (isPrint : Nat → Bool) : Const → ConstError → Prop where
  | type : Because isPrint .other .notString
  | long {s : GoString} : 72 < (GoStr.runes (quote isPrint s)).length → Because isPrint (.str s) .unquoting
  | format {s : GoString} : (GoStr.runes (quote isPrint s)).length ≤ 72 → Because isPrint (.str s) .format

end Serum
