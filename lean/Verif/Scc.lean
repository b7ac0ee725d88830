/-!
# Strongly connected components state (`analysis/scc/strongly_connected_components.go`)

Nodes are of an arbitrary type with decidable equality (Go: `interface{}` map keys).

Simplifications, all behaviour preserving:
* a `*vertex` is identified with its node: `vertices` maps each node to exactly one vertex and the
  stack holds pointers to those vertices, so pointer equality on the stack is node equality;
* the stack is listed newest first (Go appends at the end of a slice); the component returned by
  `EndVisit` is put back into Go's order (oldest first).
-/

namespace Serum

/-- Ways in which the modelled Go code stops abnormally.  `outOfFuel` is not a Go behaviour: it
marks that the step bound given to a model function was too small. -/
inductive Stop where
  | outOfFuel
  /-- "given node was already visited" (strongly_connected_components.go:54). -/
  | revisit
  /-- nil dereference of a missing vertex. -/
  | nilVertex
  /-- index out of range while unwinding the stack. -/
  | stackUnderflow
  /-- a panic raised by the rest of the analyzer, with its location. -/
  | panic (loc : String)
  deriving DecidableEq, Repr

/-- strongly_connected_components.go:29-33 `vertex` (the `node` field is the map key). -/
structure Vertex where
  index : Nat
  lowindex : Nat
  isOnStack : Bool
  deriving DecidableEq, Repr

/-- strongly_connected_components.go:24-28 `state`. -/
structure Scc (N : Type) where
  index : Nat
  vertices : N → Option Vertex
  /-- newest first -/
  stack : List N

namespace Scc
variable {N : Type} [DecidableEq N]

/-- strongly_connected_components.go:43-49 `StartSCC`. -/
def start : Scc N := ⟨0, fun _ => none, []⟩

/-- Storing through a `*vertex`. -/
def setVertex (s : Scc N) (n : N) (v : Vertex) : Scc N :=
  { s with vertices := fun m => if m = n then some v else s.vertices m }

/-- strongly_connected_components.go:53-67 `Visit`. -/
def visit (s : Scc N) (node : N) : Except Stop (Scc N) :=
  match s.vertices node with
  | some _ => .error .revisit
  | none =>
    .ok { (s.setVertex node ⟨s.index, s.index, true⟩) with
          stack := node :: s.stack, index := s.index + 1 }

/-- strongly_connected_components.go:78-80, the loop `for ; v != s.stack[i]; i--`: the popped
nodes (newest first, including `node`) and the rest; `none` is running off the stack. -/
def popTo (node : N) : List N → Option (List N × List N)
  | [] => none
  | x :: xs =>
    if x = node then some ([x], xs)
    else match popTo node xs with
      | none => none
      | some (p, r) => some (x :: p, r)

/-- Clearing `isOnStack` of the popped vertices (strongly_connected_components.go:76,79). -/
def clear (s : Scc N) (popped : List N) : Scc N :=
  { s with vertices := fun m =>
      if m ∈ popped then (s.vertices m).map (fun v => { v with isOnStack := false })
      else s.vertices m }

/-- strongly_connected_components.go:69-91 `EndVisit`: `none` is `(false, nil)`, `some c` is
`(true, c)`. -/
def endVisit (s : Scc N) (node : N) : Except Stop (Option (List N) × Scc N) :=
  match s.vertices node with
  | none => .error .nilVertex
  | some v =>
    if v.index ≠ v.lowindex then .ok (none, s)
    else match popTo node s.stack with
      | none => .error .stackUnderflow
      | some (popped, rest) =>
        .ok (some popped.reverse, { (s.clear popped) with stack := rest })

/-- strongly_connected_components.go:93-101 `HandleEdge`. -/
def handleEdge (s : Scc N) (src dst : N) : Except Stop (Bool × Scc N) :=
  match s.vertices dst with
  | none => .ok (true, s)
  | some t =>
    if t.isOnStack then
      match s.vertices src with
      | none => .error .nilVertex
      | some f => .ok (false, s.setVertex src { f with lowindex := min f.lowindex t.index })
    else .ok (false, s)

/-- strongly_connected_components.go:103-107 `AfterRecurse`. -/
def afterRecurse (s : Scc N) (src dst : N) : Except Stop (Scc N) :=
  match s.vertices src, s.vertices dst with
  | some f, some t => .ok (s.setVertex src { f with lowindex := min f.lowindex t.lowindex })
  | _, _ => .error .nilVertex

end Scc

/-- The search protocol documented in strongly_connected_components.go:6-23, over a graph given by
successor lists: visit a node, for each successor ask `HandleEdge`, recurse and call `AfterRecurse`
if it says so, then `EndVisit`.  (Also strongly_connected_components_test.go's `dfs`.)  The result
lists the components reported by `EndVisit`, in order. -/
def dfsEdges {N : Type} [DecidableEq N]
    (recurse : N → Scc N → Except Stop (List (List N) × Scc N)) (node : N) :
    List N → Scc N → Except Stop (List (List N) × Scc N)
  | [], s => .ok ([], s)
  | n :: ns, s => do
    let (shouldRecurse, s) ← s.handleEdge node n
    if shouldRecurse then
      let (cs, s) ← recurse n s
      let s ← s.afterRecurse node n
      let (cs', s) ← dfsEdges recurse node ns s
      pure (cs ++ cs', s)
    else
      dfsEdges recurse node ns s

/-- One search from `node`; `fuel` bounds the recursion depth. -/
def dfs {N : Type} [DecidableEq N] (succ : N → List N) :
    Nat → N → Scc N → Except Stop (List (List N) × Scc N)
  | 0, _, _ => .error .outOfFuel
  | fuel + 1, node, s => do
    let s ← s.visit node
    let (cs, s) ← dfsEdges (dfs succ fuel) node (succ node) s
    let (c, s) ← s.endVisit node
    pure (cs ++ c.toList, s)

/-- Searches from each of `roots` that is not visited yet (as the test and `runVerify` do). -/
def dfsAll {N : Type} [DecidableEq N] (succ : N → List N) (fuel : Nat) :
    List N → Scc N → Except Stop (List (List N) × Scc N)
  | [], s => .ok ([], s)
  | r :: rs, s =>
    match s.vertices r with
    | some _ => dfsAll succ fuel rs s
    | none => do
      let (cs, s) ← dfs succ fuel r s
      let (cs', s) ← dfsAll succ fuel rs s
      pure (cs ++ cs', s)

end Serum
