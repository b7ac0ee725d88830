import Verif.GoString

/-!
# Specification: comments as they stand in the source

Written from the Go documentation of doc comments: comment markers are removed, directives
(`//go:generate …`) are not part of the text, leading blank lines disappear and several blank lines count
as one.
-/

namespace Serum.CommentSpec
open Serum Serum.GoStr

/-- A comment, without its markers. -/
inductive Comment
  /-- `//body` -/
  | line (body : GoString)
  /-- `/*body*/` -/
  | block (body : GoString)

/-- The comment as it stands in the source. -/
def Comment.source : Comment → GoString
  | .line body => b!"//" ++ body
  | .block body => b!"/*" ++ body ++ b!"*/"

/-- A `//` comment ends with its line. -/
def Comment.Ok : Comment → Prop
  | .line body => (10 : UInt8) ∉ body
  | .block _ => True

/-- `a`–`z` and `0`–`9`. -/
def LowerAlnum (b : UInt8) : Prop := (97 ≤ b ∧ b ≤ 122) ∨ (48 ≤ b ∧ b ≤ 57)

/-- The text after `//` is a directive: `line …`, `extern …`, `export …`, or `word:x…`. -/
def Directive (t : GoString) : Prop :=
  (∃ r, t = b!"line " ++ r ∨ t = b!"extern " ++ r ∨ t = b!"export " ++ r) ∨
  ∃ w b r, w ≠ [] ∧ (∀ x ∈ w, LowerAlnum x) ∧ LowerAlnum b ∧ t = w ++ b!":" ++ b :: r

/-- A line of spaces, tabs, line ends. -/
def Vacant (l : GoString) : Prop := ∀ b ∈ l, b = 32 ∨ b = 9 ∨ b = 10 ∨ b = 13

instance (l : GoString) : Decidable (Vacant l) := inferInstanceAs (Decidable (∀ b ∈ l, _))

open Classical in
/-- The lines of a comment; a directive has none. -/
noncomputable def Comment.lines : Comment → List GoString
  | .line body => if Directive body then [] else [body]
  | .block body => split 10 body

/-- The lines of a comment group. -/
noncomputable def linesOf (g : List Comment) : List GoString := g.flatMap Comment.lines

/-- Of several empty lines in a row, only the last one is kept. -/
def single : List GoString → List GoString
  | [] => []
  | [l] => [l]
  | a :: b :: ls => if Vacant a ∧ Vacant b then single (b :: ls) else a :: single (b :: ls)

/-- Leading empty lines are dropped, and others counted once. -/
def collapse (ls : List GoString) : List GoString := single (ls.dropWhile (fun l => decide (Vacant l)))

/-- The lines of a comment group as they are read, white space around them removed. -/
noncomputable def reading (g : List Comment) : List GoString := (collapse (linesOf g)).map trimSpace

end Serum.CommentSpec
