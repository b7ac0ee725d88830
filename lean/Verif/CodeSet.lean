import Verif.GoString

/-!
# Code sets (`analysis/set_operations.go`)

`CodeSet` is a Go map `map[string]struct{}`.  Two models are given:

* a value model (`CodeSet`, a duplicate-free list of keys in *some* order), used by the rest of the
  development, where only membership is ever observed, and
* a heap model (`Heap`, `MapRef`) in which maps are references, `nil` is a reference that reads as
  empty and panics on write, and every `range` loop enumerates the keys in an arbitrary order that
  is a parameter.  The theorems of `Props/CodeSets.lean` about aliasing, panics and iteration order
  are about the heap model, and link it to the value model.
-/

namespace Serum

/-- The keys of a Go `CodeSet` (set_operations.go:8), listed in some order.  Go's `nil` map and an
empty map are both `[]`: the analyzer only reads possibly-nil sets. -/
abbrev CodeSet := List GoString

namespace CodeSet

/-- `set[value] = struct{}{}` (set_operations.go:40-42 `Add`; also find_error_docs.go:137-139). -/
def add (s : CodeSet) (v : GoString) : CodeSet := if v ∈ s then s else s ++ [v]

/-- set_operations.go:21-27 `SliceToSet` (and :15-17 `Set`). -/
def ofSlice (vs : List GoString) : CodeSet := vs.foldl add []

/-- set_operations.go:46-59 `Union`, the keys being enumerated in list order. -/
def union (s t : CodeSet) : CodeSet := t.foldl add (s.foldl add [])

/-- set_operations.go:64-72 `Difference`, the keys being enumerated in list order. -/
def diff (s t : CodeSet) : CodeSet := s.foldl (fun d v => if v ∈ t then d else add d v) []

end CodeSet

/-- A heap of maps: reference `n` is the `n`-th allocated map. -/
abbrev Heap := List CodeSet

/-- A value of the Go type `CodeSet`: `none` is the nil map. -/
abbrev MapRef := Option Nat

/-- Map operations: a state transformer that may panic (`none`). -/
abbrev HeapM (α : Type) := Heap → Option (α × Heap)

namespace HeapM

/-- Sequencing of map operations. -/
def bind {α β : Type} (m : HeapM α) (f : α → HeapM β) : HeapM β := fun h =>
  match m h with
  | none => none
  | some (a, h') => f a h'

/-- The keys a reference currently holds; a nil map has none. -/
def keys (h : Heap) : MapRef → CodeSet
  | none => []
  | some n => h.getD n []

/-- `make(CodeSet, n)`: a fresh empty map. -/
def alloc : HeapM MapRef := fun h => some (some h.length, h ++ [[]])

/-- `m[v] = struct{}{}`; panics if `m` is nil. -/
def store (m : MapRef) (v : GoString) : HeapM Unit := fun h =>
  match m with
  | none => none
  | some n => some ((), h.set n ((h.getD n []).add v))

/-- `_, ok := m[v]`. -/
def load (m : MapRef) (v : GoString) : HeapM Bool := fun h => some (decide (v ∈ keys h m), h)

/-- `for v := range vs { body(v) }` over an explicit list of values. -/
def forEach (vs : List GoString) (body : GoString → HeapM Unit) : HeapM Unit :=
  match vs with
  | [] => fun h => some ((), h)
  | v :: vs => bind (body v) fun _ => forEach vs body

/-- `for v := range m`, the keys being enumerated in the order chosen by `ord`. (Go leaves it open
whether entries added *during* the loop are visited; no loop of set_operations.go writes the map it
ranges over, which is proved, not assumed: the written map is freshly allocated.) -/
def range (ord : CodeSet → List GoString) (m : MapRef) (body : GoString → HeapM Unit) : HeapM Unit :=
  fun h => forEach (ord (keys h m)) body h

/-- set_operations.go:21-27 `SliceToSet`. -/
def sliceToSet (slice : List GoString) : HeapM MapRef :=
  bind alloc fun set =>
  bind (forEach slice fun value => store set value) fun _ => fun h => some (set, h)

/-- set_operations.go:31-37 `CodeSet.Slice`: collects the keys in enumeration order. -/
def slice (ord : CodeSet → List GoString) (set : MapRef) : HeapM (List GoString) :=
  fun h => some (ord (keys h set), h)

/-- set_operations.go:40-42 `CodeSet.Add`. -/
def addKey (set : MapRef) (v : GoString) : HeapM Unit := store set v

/-- set_operations.go:46-59 `Union`. -/
def union (ord₁ ord₂ : CodeSet → List GoString) (set other : MapRef) : HeapM MapRef :=
  bind alloc fun result =>
  bind (range ord₁ set fun value => store result value) fun _ =>
  bind (range ord₂ other fun value => store result value) fun _ => fun h => some (result, h)

/-- set_operations.go:64-72 `Difference`. -/
def difference (ord : CodeSet → List GoString) (set subtrahend : MapRef) : HeapM MapRef :=
  bind alloc fun diff =>
  bind (range ord set fun value =>
    bind (load subtrahend value) fun ok =>
      if ok then fun h => some ((), h) else store diff value) fun _ => fun h => some (diff, h)

end HeapM
end Serum
