import Verif.CodeValid

/-!
# Specification: the grammar of return statement annotations

Written from annotation.go:22-34 and USERGUIDE.md ("Error Codes …" comments), with the one deviation
of the code from its own comment: the `+code -code` list is separated by spaces, not commas.
-/

namespace Serum.AnnGrammar
open Serum Serum.GoStr Serum.CodeFormat

/-- What an annotation says. -/
structure Meaning where
  /-- replace all codes by `set` -/
  overwrite : Option (GoString → Prop)
  add : GoString → Prop
  remove : GoString → Prop

/-- `list` is a comma separated list of codes (white space around codes allowed), or blank. -/
def CodeList (list : GoString) (C : GoString → Prop) : Prop :=
  (trimSpace list = [] ∧ ∀ c, ¬ C c) ∨
  (trimSpace list ≠ [] ∧ (∀ piece ∈ split 44 list, WellFormed (trimSpace piece)) ∧
    ∀ c, C c ↔ ∃ piece ∈ split 44 list, c = trimSpace piece)

/-- The words of a string: pieces between spaces, trimmed, blank ones dropped. -/
def words (s : GoString) : List GoString := ((split 32 s).map trimSpace).filter (· ≠ [])

/-- The text after the indicator means `m`. -/
inductive Says : GoString → Meaning → Prop
  /-- `= list` -/
  | overwrite {list C} : CodeList list C →
      Says (b!"=" ++ list) ⟨some C, fun _ => False, fun _ => False⟩
  /-- `+= list` -/
  | add {list C} : CodeList list C → Says (b!"+=" ++ list) ⟨none, C, fun _ => False⟩
  /-- `-= list` -/
  | sub {list C} : CodeList list C → Says (b!"-=" ++ list) ⟨none, fun _ => False, C⟩
  /-- `+code`, `-code`, separated by spaces -/
  | mods {s} : (b!"+" <+: s ∨ b!"-" <+: s) → ¬ b!"+=" <+: s → ¬ b!"-=" <+: s →
      (∀ w ∈ words s, ∃ c, WellFormed c ∧ (w = b!"+" ++ c ∨ w = b!"-" ++ c)) →
      Says s ⟨none, fun c => b!"+" ++ c ∈ words s, fun c => b!"-" ++ c ∈ words s⟩

/-- What stands after the indicator on the indicator lines of a comment, white space removed. -/
def indicatorTexts (comment : GoString) : List GoString :=
  ((split 10 comment).map trimSpace).filterMap fun l =>
    if b!"Error Codes".isPrefixOf l then some (trimSpace (l.drop b!"Error Codes".length)) else none

end Serum.AnnGrammar
