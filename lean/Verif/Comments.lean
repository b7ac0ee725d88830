import Verif.GoString

/-!
# Comments (`analysis/analyse.go:246-265`, `analysis/annotation.go:45-49`)

What the analyzer reads of a comment is `CommentGroup.Text()` of go/ast, a standard library function; it is
modelled here from its source (go/ast/ast.go, `CommentGroup.Text`, `isDirective`, `stripTrailingWhitespace`).
The argument is the list of comments of the group as they stand in the source, comment markers included
(`ast.Comment.Text`).
-/

namespace Serum
open GoStr

namespace CommentText

/-- go/ast `isWhitespace`. -/
def isWhitespace (b : UInt8) : Bool := b == 32 || b == 9 || b == 10 || b == 13

/-- go/ast `stripTrailingWhitespace`. -/
def stripTrailing (s : GoString) : GoString := (s.reverse.dropWhile isWhitespace).reverse

/-- The bytes allowed before and right after the colon of a directive. -/
def isLowerAlnum (b : UInt8) : Bool := (97 ≤ b && b ≤ 122) || (48 ≤ b && b ≤ 57)

/-- go/ast `isDirective`; the words `extern` and `export` are recognised by newer versions of Go only. -/
def isDirective (c : GoString) : Bool :=
  if hasPrefix c b!"line " || hasPrefix c b!"extern " || hasPrefix c b!"export " then true
  else match index b!":" c with
    | none => false
    | some colon =>
      if colon = 0 || decide (colon + 1 ≥ c.length) then false
      else (c.take colon).all isLowerAlnum && (c.drop (colon + 1)).head?.any isLowerAlnum

/-- The loop body of `CommentGroup.Text`: the lines a single comment contributes. -/
def commentLines (c : GoString) : List GoString :=
  match c with
  | _ :: 47 :: body =>
    match body with
    | [] => (split 10 []).map stripTrailing
    | 32 :: rest => (split 10 rest).map stripTrailing
    | body => if isDirective body then [] else (split 10 body).map stripTrailing
  | _ :: 42 :: body => (split 10 (body.take (body.length - 2))).map stripTrailing
  | c => (split 10 c).map stripTrailing

/-- The compaction loop of `CommentGroup.Text`: `kept` is `lines[0:n]`. -/
def compactLoop (kept : List GoString) : List GoString → List GoString
  | [] => kept
  | l :: ls =>
    if l ≠ [] ∨ (kept.length > 0 ∧ kept.getLast? ≠ some []) then compactLoop (kept ++ [l]) ls
    else compactLoop kept ls

/-- `CommentGroup.Text` for a group that is not nil. -/
def text (group : List GoString) : GoString :=
  let lines := compactLoop [] (group.flatMap commentLines)
  let lines := if lines.length > 0 ∧ lines.getLast? ≠ some [] then lines ++ [[]] else lines
  join [10] lines

end CommentText

/-- A map entry is overwritten (`comments[node] = comment`). -/
def CommentMap.insert {α} (m : Nat → Option α) (node : Nat) (c : α) : Nat → Option α :=
  fun n => if n = node then some c else m n

/-- analyse.go:246-258 `createCommentMap`: `files` lists for each file the entries of its comment map, in
iteration order. (`ast.NewCommentMap`, which attaches comments to nodes: `CommentMap.lean`.) -/
def createCommentMap {α} (files : List (List (Nat × α))) : Nat → Option α :=
  files.foldl (fun m file => file.foldl (fun m e => CommentMap.insert m e.1 e.2) m) (fun _ => none)

end Serum
