import Verif.Spec.FieldSpec
import Verif.AnalyseBody
import Verif.ErrorTypes

/-! # What looking at assignments to code fields finds -/

namespace Serum
namespace Analyse
open Flow Taint

variable {env : Env} {f : FnId} {x : ObjId}

theorem fieldTarget_iff {l : Node} {i sel : Ident} : fieldTarget l = some (i, sel) ↔ ∃ sid, l = .selector sid (.ident i) sel := by
  constructor
  · intro h
    unfold fieldTarget at h
    split at h
    · cases h; exact ⟨_, rfl⟩
    · cases h
  · rintro ⟨sid, rfl⟩; rfl

/-- One entry of the left-hand side that is the code field. -/
def contribution (env : Env) (f : FnId) (lhsLen : Nat) (rhs : List Node) (j : Nat) : BodyPlan :=
  if lhsLen ≠ rhs.length then
    match rhs with
    | [] => .panic "analyse.go:920: index out of range"
    | r :: _ => .report ⟨r.id, .notConstant⟩
  else
    match rhs[j]? with
    | none => .panic "analyse.go:924: index out of range"
    | some r => foundCode (extractErrorCodeFromStringExpression env f r)

/-- The leaves found in one assignment, if the type of the variable has a code field. -/
theorem fieldAssignment_leaves {t : ErrorType} {fd : ErrorCodeField} (hfd : t.field = some fd) (len : Nat) (rhs : List Node)
    (hne : len ≠ rhs.length → rhs ≠ []) {l : BodyPlan} (hl : l ≠ .codes []) :
    ∀ (ls : List Node) (n : Nat) (et : Option ErrorType), n + ls.length = len →
      (∀ m ∈ ls, ∀ i sel, fieldTarget m = some (i, sel) → i.obj = some x → resolveType env et i = some t) →
      (l ∈ (fieldAssignment env f x len rhs et n ls).leaves ↔
        ∃ k, FieldTarget x fd.name ls k ∧ l ∈ (contribution env f len rhs (n + k)).leaves) := by
  intro ls
  induction ls with
  | nil =>
    intro n et _ _
    simp only [fieldAssignment, Plan.leaves, List.mem_singleton, hl, false_iff]
    rintro ⟨k, ⟨_, _, _, h, -⟩, -⟩
    simp at h
  | cons m ms ih =>
    intro n et hlen hty
    have hlen' : n + 1 + ms.length = len := by simp at hlen; omega
    have shift : ∀ et', (∀ m ∈ ms, ∀ i sel, fieldTarget m = some (i, sel) → i.obj = some x →
        resolveType env et' i = some t) →
        (l ∈ (fieldAssignment env f x len rhs et' (n + 1) ms).leaves ↔
        ∃ k, FieldTarget x fd.name (m :: ms) (k + 1) ∧ l ∈ (contribution env f len rhs (n + (k + 1))).leaves) := by
      intro et' hty'
      rw [ih (n + 1) et' hlen' hty']
      have : ∀ k, n + 1 + k = n + (k + 1) := by omega
      simp only [this, FieldTarget, List.getElem?_cons_succ]
    have hty' : ∀ m ∈ ms, ∀ i sel, fieldTarget m = some (i, sel) → i.obj = some x → resolveType env et i = some t :=
      fun m hm => hty m (List.mem_cons_of_mem _ hm)
    have hsome : ∀ m ∈ ms, ∀ i sel, fieldTarget m = some (i, sel) → i.obj = some x → resolveType env (some t) i = some t :=
      fun m hm i sel hi ho => rfl
    -- this entry is not the field
    have skip : ¬ FieldTarget x fd.name (m :: ms) 0 → ∀ et',
        (∀ m ∈ ms, ∀ i sel, fieldTarget m = some (i, sel) → i.obj = some x → resolveType env et' i = some t) →
        (l ∈ (fieldAssignment env f x len rhs et' (n + 1) ms).leaves ↔
          ∃ k, FieldTarget x fd.name (m :: ms) k ∧ l ∈ (contribution env f len rhs (n + k)).leaves) := by
      intro hno et' h2
      rw [shift et' h2]
      constructor
      · rintro ⟨k, h⟩; exact ⟨k + 1, h⟩
      · rintro ⟨k, h⟩
        cases k with
        | zero => exact absurd h.1 hno
        | succ k => exact ⟨k, h⟩
    simp only [fieldAssignment]
    split
    · rename_i hm
      refine skip ?_ et hty'
      rintro ⟨sid, i, sel, h, -⟩
      simp only [List.getElem?_cons_zero, Option.some.injEq] at h
      rw [fieldTarget_iff.2 ⟨sid, h⟩] at hm; cases hm
    · rename_i i sel hm
      have hm0 : ∀ name, FieldTarget x name (m :: ms) 0 → i.obj = some x ∧ sel.name = name := by
        rintro name ⟨sid, i', sel', h, ho, hn⟩
        simp only [List.getElem?_cons_zero, Option.some.injEq] at h
        rw [fieldTarget_iff.2 ⟨sid, h⟩] at hm; cases hm
        exact ⟨ho, hn⟩
      split
      · rename_i ho
        exact skip (fun h => ho (hm0 _ h).1) et hty'
      · rename_i ho
        simp only [Classical.not_not] at ho
        rw [hty m (by simp) i sel hm ho]
        simp only [hfd]
        split
        · rename_i hn
          exact skip (fun h => hn (hm0 _ h).2.symm) (some t) hsome
        · rename_i hn
          simp only [Classical.not_not] at hn
          obtain ⟨sid, rfl⟩ := fieldTarget_iff.1 hm
          have htarget : FieldTarget x fd.name (Node.selector sid (.ident i) sel :: ms) 0 :=
            ⟨sid, i, sel, rfl, ho, hn.symm⟩
          have join : ∀ c, contribution env f len rhs n = c →
              (l ∈ (Plan.union c (fieldAssignment env f x len rhs (some t) (n + 1) ms)).leaves ↔
              ∃ k, FieldTarget x fd.name (Node.selector sid (.ident i) sel :: ms) k ∧
                l ∈ (contribution env f len rhs (n + k)).leaves) := by
            rintro c rfl
            simp only [Plan.leaves, List.mem_append, shift (some t) hsome]
            constructor
            · rintro (h | ⟨k, h⟩)
              · exact ⟨0, htarget, h⟩
              · exact ⟨k + 1, h⟩
            · rintro ⟨k, h⟩
              cases k with
              | zero => exact .inl h.2
              | succ k => exact .inr ⟨k, h⟩
          split
          · rename_i hlne
            split
            · exact absurd rfl (hne hlne)
            · refine join _ ?_
              rw [contribution, if_pos hlne]
          · rename_i hleq
            simp only [Classical.not_not] at hleq
            split
            · rename_i hr
              rw [List.getElem?_eq_none_iff] at hr
              simp at hlen; omega
            · rename_i r hr
              refine join _ ?_
              simp [contribution, hleq, hr]

/-- What one field assignment or destructuring contributes. -/
theorem contribution_leaves {len : Nat} {rhs : List Node} {k : Nat} {l : BodyPlan}
    (hne : len ≠ rhs.length → rhs ≠ []) (hk : k < len) :
    l ∈ (contribution env f len rhs k).leaves ↔
      (len = rhs.length ∧ ∃ e, rhs[k]? = some e ∧ l ∈ (foundCode (extractErrorCodeFromStringExpression env f e)).leaves) ∨
      (len ≠ rhs.length ∧ ∃ e, rhs.head? = some e ∧ l = .report ⟨e.id, .notConstant⟩) := by
  unfold contribution
  split
  · rename_i h
    cases rhs with
    | nil => exact absurd rfl (hne h)
    | cons r rs =>
      simp only [Plan.leaves, List.mem_singleton, h, false_and, false_or, ne_eq, not_false_eq_true, true_and,
        List.head?_cons, Option.some.injEq, exists_eq_left']
  · rename_i h
    simp only [Classical.not_not] at h
    have : k < rhs.length := by omega
    simp [h, List.getElem?_eq_getElem this]

theorem fieldTarget_lt {name : GoString} {lhs : List Node} {k : Nat} (h : FieldTarget x name lhs k) : k < lhs.length := by
  obtain ⟨_, _, _, h, -⟩ := h
  exact (List.getElem?_eq_some_iff.1 h).1

/-- The leaves of all field assignments, if the type of the variable has a code field. -/
inductive FieldLeaf (env : Env) (f : FnId) (ns : List Node) (x : ObjId) (name : GoString) (l : BodyPlan) : Prop where
  | assigned {id lhs rhs k e} : .assign id lhs rhs ∈ ns → lhs.length = rhs.length → FieldTarget x name lhs k →
      rhs[k]? = some e → l ∈ (foundCode (extractErrorCodeFromStringExpression env f e)).leaves → FieldLeaf env f ns x name l
  | destructured {id lhs rhs k e} : .assign id lhs rhs ∈ ns → lhs.length ≠ rhs.length → FieldTarget x name lhs k →
      rhs.head? = some e → l = .report ⟨e.id, .notConstant⟩ → FieldLeaf env f ns x name l

theorem oneAssignment_leaves {t : ErrorType} {fd : ErrorCodeField} (hfd : t.field = some fd) {id : NodeId}
    {lhs rhs : List Node} (hne : lhs.length ≠ rhs.length → rhs ≠ []) {et : Option ErrorType}
    (hty : ∀ m ∈ lhs, ∀ i sel, fieldTarget m = some (i, sel) → i.obj = some x → resolveType env et i = some t)
    {l : BodyPlan} (hl : l ≠ .codes []) :
    l ∈ (fieldAssignment env f x lhs.length rhs et 0 lhs).leaves ↔ FieldLeaf env f [.assign id lhs rhs] x fd.name l := by
  rw [fieldAssignment_leaves hfd lhs.length rhs hne hl lhs 0 et (by simp) hty]
  constructor
  · rintro ⟨k, ht, h⟩
    rw [contribution_leaves hne (by have := fieldTarget_lt ht; omega)] at h
    rcases h with ⟨h, e, he, h'⟩ | ⟨h, e, he, h'⟩
    · exact .assigned (List.mem_singleton.2 rfl) h ht (by simpa using he) h'
    · exact .destructured (List.mem_singleton.2 rfl) h ht he h'
  · rintro (⟨hm, h, ht, he, h'⟩ | ⟨hm, h, ht, he, h'⟩)
    all_goals
      simp only [List.mem_singleton, Node.assign.injEq] at hm
      obtain ⟨rfl, rfl, rfl⟩ := hm
      refine ⟨_, ht, ?_⟩
      rw [contribution_leaves hne (by have := fieldTarget_lt ht; omega)]
    · exact .inl ⟨h, _, by simpa using he, h'⟩
    · exact .inr ⟨h, _, he, h'⟩

theorem FieldLeaf.cons {n : Node} {ns : List Node} {name : GoString} {l : BodyPlan} :
    FieldLeaf env f (n :: ns) x name l ↔ FieldLeaf env f [n] x name l ∨ FieldLeaf env f ns x name l := by
  constructor
  · rintro (⟨hm, h, ht, he, h'⟩ | ⟨hm, h, ht, he, h'⟩)
    all_goals rcases List.mem_cons.1 hm with hm | hm
    · exact .inl (.assigned (List.mem_singleton.2 hm) h ht he h')
    · exact .inr (.assigned hm h ht he h')
    · exact .inl (.destructured (List.mem_singleton.2 hm) h ht he h')
    · exact .inr (.destructured hm h ht he h')
  · rintro ((⟨hm, h, ht, he, h'⟩ | ⟨hm, h, ht, he, h'⟩) | (⟨hm, h, ht, he, h'⟩ | ⟨hm, h, ht, he, h'⟩))
    · exact .assigned (List.mem_cons.2 (.inl (List.mem_singleton.1 hm))) h ht he h'
    · exact .destructured (List.mem_cons.2 (.inl (List.mem_singleton.1 hm))) h ht he h'
    · exact .assigned (List.mem_cons_of_mem _ hm) h ht he h'
    · exact .destructured (List.mem_cons_of_mem _ hm) h ht he h'

/-- The type found for the variable at each of its field targets. -/
def FieldTypes (env : Env) (ns : List Node) (x : ObjId) (t : ErrorType) : Prop :=
  ∀ id lhs rhs, .assign id lhs rhs ∈ ns → ∀ sid i sel, .selector sid (.ident i) sel ∈ lhs → i.obj = some x →
    env.getErrorTypeForError (env.typeOf i.id) = some t

theorem fieldAssignments_leaves {t : ErrorType} {fd : ErrorCodeField} (hfd : t.field = some fd) {l : BodyPlan}
    (hl : l ≠ .codes []) : ∀ ns : List Node, (∀ id lhs rhs, .assign id lhs rhs ∈ ns → lhs.length ≠ rhs.length → rhs ≠ []) →
    FieldTypes env ns x t → (l ∈ (fieldAssignments env f x ns).leaves ↔ FieldLeaf env f ns x fd.name l) := by
  intro ns
  induction ns with
  | nil =>
    intro _ _
    simp only [fieldAssignments, Plan.leaves, List.mem_singleton, hl, false_iff]
    rintro (⟨hm, -⟩ | ⟨hm, -⟩) <;> simp at hm
  | cons n ns ih =>
    intro hne hty
    have ih' := ih (fun id lhs rhs h => hne id lhs rhs (List.mem_cons_of_mem _ h))
      (fun id lhs rhs h => hty id lhs rhs (List.mem_cons_of_mem _ h))
    rw [FieldLeaf.cons]
    have other : (∀ id lhs rhs, n ≠ .assign id lhs rhs) → ¬ FieldLeaf env f [n] x fd.name l := by
      intro hn
      rintro (⟨hm, -⟩ | ⟨hm, -⟩)
      all_goals exact hn _ _ _ (List.mem_singleton.1 hm).symm
    cases n with
    | assign id lhs rhs =>
      simp only [fieldAssignments, Plan.leaves, List.mem_append, ih']
      rw [oneAssignment_leaves (id := id) hfd (hne id lhs rhs (by simp)) (et := none) ?_ hl]
      intro m hm i sel hi ho
      obtain ⟨sid, rfl⟩ := fieldTarget_iff.1 hi
      exact hty id lhs rhs (by simp) sid i sel hm ho
    | _ =>
      simp only [fieldAssignments, ih']
      exact ⟨.inr, fun h => h.resolve_left (other (by simp))⟩

end Analyse

open Flow Analyse

/-- The same for the methods of an error type, whose type is given. -/
theorem methodAssignments_leaves {env : Env} {f : FnId} {x : ObjId} {t : ErrorType} {fd : ErrorCodeField}
    (hfd : t.field = some fd) {l : BodyPlan} (hl : l ≠ .codes []) : ∀ ns : List Node,
    (∀ id lhs rhs, .assign id lhs rhs ∈ ns → lhs.length ≠ rhs.length → rhs ≠ []) →
    (l ∈ (methodAssignments env f t x ns).leaves ↔ FieldLeaf env f ns x fd.name l) := by
  intro ns
  induction ns with
  | nil =>
    intro _
    simp only [methodAssignments, Plan.leaves, List.mem_singleton, hl, false_iff]
    rintro (⟨hm, -⟩ | ⟨hm, -⟩) <;> simp at hm
  | cons n ns ih =>
    intro hne
    have ih' := ih (fun id lhs rhs h => hne id lhs rhs (List.mem_cons_of_mem _ h))
    rw [FieldLeaf.cons]
    have other : (∀ id lhs rhs, n ≠ .assign id lhs rhs) → ¬ FieldLeaf env f [n] x fd.name l := by
      intro hn
      rintro (⟨hm, -⟩ | ⟨hm, -⟩)
      all_goals exact hn _ _ _ (List.mem_singleton.1 hm).symm
    cases n with
    | assign id lhs rhs =>
      simp only [methodAssignments, Plan.leaves, List.mem_append, ih']
      rw [oneAssignment_leaves (id := id) hfd (hne id lhs rhs (by simp)) (et := some t) (fun _ _ _ _ _ _ => rfl) hl]
    | _ =>
      simp only [methodAssignments, ih']
      exact ⟨.inr, fun h => h.resolve_left (other (by simp))⟩

end Serum
