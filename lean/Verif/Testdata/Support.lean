import Verif.Comments
import Verif.Props.CheckerTexts

/-! # Tables for the packages in analysis/testdata -/

namespace Serum.Testdata
open Serum

/-- Search trees for the tables of the type checker. -/
inductive Tree (α : Type) where
  | nil
  | node (l : Tree α) (k : Nat) (v : α) (r : Tree α)

def Tree.find {α : Type} : Tree α → Nat → Option α
  | .nil, _ => none
  | .node l k v r, n => bif Nat.beq n k then some v else bif Nat.blt n k then l.find n else r.find n

structure DeclInfo where
  name : GoString
  exported : Bool
  recv : Option NodeId
  doc : Option GoString
  pos : NodeId
  obj : Object
  recvNames : List Ident

/-- A number for types that can have methods. -/
def typeKey : GoType → Option Nat
  | .named o => some (5 * o)
  | .pointer (.named o) => some (5 * o + 1)
  | .interface n => some (5 * n + 2)
  | .struct n => some (5 * n + 3)
  | .pointer (.struct n) => some (5 * n + 4)
  | _ => none

def has (t : Tree Unit) (ty : GoType) : Bool := ((typeKey ty).bind t.find).isSome

def lookup {α : Type} (name : GoString) : List (GoString × α) → Option α
  | [] => none
  | (k, v) :: l => if k = name then some v else lookup name l

def noFacts : Facts := ⟨fun _ => none, fun _ => none, fun _ => none, fun _ => none⟩

/-- The facts of several packages. -/
def merge (a b : Facts) : Facts :=
  ⟨fun o => (a.codes o).or (b.codes o), fun o => (a.ctor o).or (b.ctor o), fun o => (a.errorType o).or (b.errorType o),
   fun o => (a.interface o).or (b.interface o)⟩

theorem tables_noFacts : Check.Tables noFacts := fun _ _ h => by cases h

theorem _root_.Serum.Check.Tables.merge {a b : Facts} (ha : Check.Tables a) (hb : Check.Tables b) : Check.Tables (merge a b) := by
  intro o ms h
  have h : (a.interface o).or (b.interface o) = some ms := h
  cases h1 : a.interface o with
  | some x => rw [h1] at h; exact ha o ms (h1.trans h)
  | none => rw [h1, Option.none_or] at h; exact hb o ms h

theorem _root_.Serum.Props.Run.SameFacts.merge {a b a' b' : Facts} (h : Props.Run.SameFacts a a') (h' : Props.Run.SameFacts b b') :
    Props.Run.SameFacts (merge a b) (merge a' b') where
  codes := by funext o; show (a.codes o).or (b.codes o) = _; rw [h.codes, h'.codes]; rfl
  ctor := by funext o; show (a.ctor o).or (b.ctor o) = _; rw [h.ctor, h'.ctor]; rfl
  errorType := by funext o; show (a.errorType o).or (b.errorType o) = _; rw [h.errorType, h'.errorType]; rfl
  interface := fun o => by
    show ((a.interface o).or (b.interface o) = none ∧ (a'.interface o).or (b'.interface o) = none) ∨
      ∃ ms ms', (a.interface o).or (b.interface o) = some ms ∧ (a'.interface o).or (b'.interface o) = some ms' ∧ ms.Perm ms'
    rcases h.interface o with ⟨k1, k2⟩ | ⟨ms, ms', k1, k2, k3⟩
    · rw [k1, k2]; exact h'.interface o
    · rw [k1, k2]; exact .inr ⟨ms, ms', rfl, rfl, k3⟩

end Serum.Testdata
