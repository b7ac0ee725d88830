import Verif.CodeValid

/-!
# Specification: the documented grammar of docstring declarations

Written from the comment find_error_docs.go:12-40 and USERGUIDE.md, independently of the state
machine.  It uses only `strings.Split`, `strings.TrimSpace`, "is a prefix of" and the code format.
-/

namespace Serum.DocGrammar
open Serum Serum.GoStr Serum.CodeFormat

/-- The lines of a comment, white space around them removed. -/
def lines (doc : GoString) : List GoString := (split 10 doc).map trimSpace

/-- A line that opens a declaration block. -/
def StartsBlock (l : GoString) : Prop := l = b!"Errors:"

/-- A line that declares that no codes are returned. -/
def SaysNone (l : GoString) : Prop := b!"Errors: none" <+: l

/-- Neither of the above: a line of prose before any declaration. -/
def Prose (l : GoString) : Prop := ¬ StartsBlock l ∧ ¬ SaysNone l

/-- A line with the `Errors:` indicator. -/
def HasIndicator (l : GoString) : Prop := b!"Errors:" <+: l

/-- The line reads `- text --…`, where the `--` is the first one preceded by a space, and the text is
what stands in between, white space around it removed. -/
def EntryText (l t : GoString) : Prop :=
  ∃ raw rest, l = b!"- " ++ raw ++ b!" --" ++ rest ∧
    (∀ i, i < (b!"- " ++ raw).length → ¬ b!" --" <+: l.drop i) ∧ t = trimSpace raw

/-- The line declares the code `c`. -/
def EntryCode (l c : GoString) : Prop := EntryText l c ∧ WellFormed c

/-- The line declares the error code parameter `p`. -/
def EntryParam (l p : GoString) : Prop :=
  p ≠ [] ∧ ∃ x, EntryText l (b!"param:" ++ x) ∧ p = trimSpace x

/-- A line allowed inside a declaration block. -/
def BlockLine (l : GoString) : Prop :=
  l ≠ [] ∧ ¬ HasIndicator l ∧ (b!"- " <+: l → (∃ c, EntryCode l c) ∨ (∃ p, EntryParam l p))

/-- What follows the block: nothing, or a blank line and lines without the indicator. -/
def AfterBlock (tail : List GoString) : Prop :=
  tail = [] ∨ ∃ post, tail = [] :: post ∧ ∀ l ∈ post, ¬ HasIndicator l

/-- `param` is the one parameter declared in the block, or empty if there is none. -/
def BlockParam (block : List GoString) (param : GoString) : Prop :=
  (param = [] ∧ ∀ l ∈ block, ∀ p, ¬ EntryParam l p) ∨
  (∃ b₁ l b₂, block = b₁ ++ l :: b₂ ∧ EntryParam l param ∧
    (∀ l' ∈ b₁ ++ b₂, ∀ p, ¬ EntryParam l' p))

/-- The documented grammar: `Declares ls C param none` says that the (trimmed) comment lines `ls`
declare exactly the codes in `C`, the error code parameter `param` (empty: none) and, if `none` is
set, explicitly no codes. -/
inductive Declares : List GoString → (GoString → Prop) → GoString → Bool → Prop
  | nothing {ls} : (∀ l ∈ ls, Prose l) → Declares ls (fun _ => False) [] false
  | none {pre l post} : (∀ l ∈ pre, Prose l) → SaysNone l → (∀ l ∈ post, ¬ HasIndicator l) →
      Declares (pre ++ l :: post) (fun _ => False) [] true
  /-- the comment ends right after the indicator -/
  | unfinished {pre l} : (∀ l ∈ pre, Prose l) → StartsBlock l →
      Declares (pre ++ [l]) (fun _ => False) [] false
  | block {pre l block tail param} : (∀ l ∈ pre, Prose l) → StartsBlock l →
      (∀ l ∈ block, BlockLine l) → BlockParam block param → AfterBlock tail →
      Declares (pre ++ l :: [] :: (block ++ tail)) (fun c => ∃ l ∈ block, EntryCode l c) param false

end Serum.DocGrammar
