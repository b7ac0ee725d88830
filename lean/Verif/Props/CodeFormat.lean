import Verif.CodeValid

/-! # C01 — the error code format check is exactly the documented pattern -/

namespace Serum.Props.CodeFormat
open Serum Serum.CodeFormat

/-- **C01.** A string (any byte sequence, valid UTF-8 or not) is accepted as an error code iff it
matches `^[a-zA-Z][a-zA-Z0-9\-]*[a-zA-Z0-9]$` or `^[a-zA-Z]$`. -/
theorem valid_iff_pattern (code : GoString) : isErrorCodeValid code = true ↔ WellFormed code :=
  isErrorCodeValid_iff_wellFormed code

/-- **C01.** No string with a byte outside ASCII — hence no non-ASCII and no malformed UTF-8 string —
is ever accepted. -/
theorem valid_ascii (code : GoString) (h : isErrorCodeValid code = true) : ∀ b ∈ code, b < 128 := by
  intro b hb
  have h2 : Letter b ∨ Digit b ∨ Dash b := by
    rcases (valid_iff_pattern code).1 h with ⟨f, m, z, rfl, hf, hm, hz⟩ | ⟨x, rfl, hx⟩
    · simp only [List.mem_cons, List.mem_append, List.not_mem_nil, or_false] at hb
      rcases hb with rfl | hb | rfl
      · exact .inl hf
      · exact hm b hb
      · exact hz.elim .inl fun h => .inr (.inl h)
    · simp at hb; subst hb; exact .inl hx
  simp only [Letter, Digit, Dash, UInt8.le_iff_toNat_le, UInt8.lt_iff_toNat_lt, ← UInt8.toNat_inj] at h2 ⊢
  simp at h2 ⊢
  omega

-- Non-vacuity: accepted and rejected cases on each side of every boundary.
example : isErrorCodeValid b!"some-error-code-2" = true := by decide
example : isErrorCodeValid b!"x" = true := by decide
example : isErrorCodeValid b!"x-" = false := by decide
example : isErrorCodeValid b!"-x" = false := by decide
example : isErrorCodeValid b!"2x" = false := by decide
example : isErrorCodeValid b!"aéb" = false := by decide
example : isErrorCodeValid [97, 0xC3, 98] = false := by decide

end Serum.Props.CodeFormat
