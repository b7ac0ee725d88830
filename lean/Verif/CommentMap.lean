import Verif.Comments

/-!
# Which comments belong to which node (`ast.NewCommentMap`, used in `analysis/analyse.go:246-258`)

A standard library function, modelled from its source (go/ast/commentmap.go).  It walks over the nodes of a file in the order of
`ast.Inspect` and over its comment groups in the order of the source, and attaches each group to a node near to it.

Positions are offsets in the file; `line` gives the line of an offset (any function: `//line` comments can change line numbers).
-/

namespace Serum.CommentMap

/-- A node, as far as it matters here: where it begins and ends (`Pos`, `End`), and whether it is one of `*File, *Field, Decl, Spec, Stmt`
(a "node group"). -/
structure Item where
  id : Nat
  pos : Nat
  stop : Nat
  group : Bool
deriving DecidableEq, Repr

/-- A comment group, and where it begins and ends. -/
structure Group where
  pos : Nat
  stop : Nat
  comments : List GoString
deriving DecidableEq, Repr

/-- commentmap.go `nodeStack.pop`: removes the nodes on the top of the stack that end before `pos`; the last one removed is returned. The
top of the stack is the head of the list. -/
def pop (pos : Nat) : List Item → Option Item × List Item
  | [] => (none, [])
  | n :: s => if n.stop ≤ pos then ((pop pos s).1.or (some n), (pop pos s).2) else (none, n :: s)

/-- commentmap.go `nodeStack.push`. -/
def push (n : Item) (stack : List Item) : List Item := n :: (pop n.pos stack).2

/-- The conditions of the `switch` in `NewCommentMap`: the comment starts on the line on which the node ends, or on the next one and there is
an empty line before the following node (the sentinel, if there is none, is on an infinitely large line). -/
def near (line : Nat → Nat) (next : Option Item) (c : Group) (n : Item) : Bool :=
  line n.stop == line c.pos ||
    (line n.stop + 1 == line c.pos && match next with
      | some q => decide (line c.stop + 1 < line q.pos)
      | none => true)

/-- The `switch` in `NewCommentMap`: the node a comment group is attached to. `recent` is `pg`, `prev` is `p`, `next` is `q`; none of them is
the internal error. -/
def choose (line : Nat → Nat) (next prev recent : Option Item) (c : Group) : Option Item :=
  match recent.filter (near line next c) with
  | some g => some g
  | none =>
    match prev.filter fun p => near line next c p || next.isNone with
    | some p => some p
    | none => next

/-- What the walk keeps: `pg`, the stack, the comment groups not yet read, and the result, in the order in which it was found. -/
structure State where
  recent : Option Item
  stack : List Item
  rest : List Group
  found : List (Item × Group)

/-- The loop over the comments before the node `next` (`none`: the sentinel after all nodes); `none`: the internal error. -/
def before (line : Nat → Nat) (next prev : Option Item) (recent : Option Item) (stack : List Item) (found : List (Item × Group)) :
    List Group → Option State
  | [] => some ⟨recent, stack, [], found⟩
  | c :: rest =>
    if next.all fun q => decide (c.stop ≤ q.pos) then
      match choose line next prev ((pop c.pos stack).1.or recent) c with
      | none => none
      | some a => before line next prev ((pop c.pos stack).1.or recent) (pop c.pos stack).2 (found ++ [(a, c)]) rest
    else some ⟨recent, stack, c :: rest, found⟩

/-- The loop over the nodes, and then the sentinel. (When the comments are used up `NewCommentMap` returns at once; that the walk goes on
here makes no difference, as nothing is attached any more.) -/
def walk (line : Nat → Nat) (prev : Option Item) (s : State) : List Item → Option (List (Item × Group))
  | [] => (before line none prev s.recent s.stack s.found s.rest).map State.found
  | q :: nodes =>
    match before line (some q) prev s.recent s.stack s.found s.rest with
    | none => none
    | some s => walk line (some q) { s with stack := if q.group then push q s.stack else s.stack } nodes

/-- `ast.NewCommentMap`: the comment groups with the nodes they are attached to. -/
def newCommentMap (line : Nat → Nat) (nodes : List Item) (comments : List Group) : Option (List (Item × Group)) :=
  walk line none ⟨none, [], comments.mergeSort fun a b => decide (a.pos ≤ b.pos), []⟩ nodes

/-- `cmap[node]`. -/
def groupsOf (m : List (Item × Group)) (id : Nat) : List Group := (m.filter fun e => e.1.id = id).map Prod.snd

/-- The entries of the map, as `createCommentMap` gets them: for each node with comments its groups. -/
def entries (m : List (Item × Group)) : List (Nat × List Group) :=
  ((m.map fun e => e.1.id).eraseDups).map fun id => (id, groupsOf m id)

end Serum.CommentMap
