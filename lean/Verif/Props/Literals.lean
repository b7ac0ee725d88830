import Verif.Props.Extract
import Verif.CodeSetLemmas
import Verif.Props.RunOrderLimits

/-!
# C46 — what an error literal contributes

The expressions `T{…}` and `&T{…}`.  The type of the expression, the types having a `Code() string` method and the facts about
error types are part of the environment; which expression initialises the error code field is defined here from the text.
-/

namespace Serum.Props.Literals
open Serum Props.Extract CodeFormat

/-- The expression initialising the error code field in the literal with the elements `elts`, if there is one. -/
inductive Initialised (field : ErrorCodeField) (elts : List Node) : Option Node → Prop where
  | keyed {e v} : KeyedLit elts → e ∈ elts → IsPair e field.name v → Initialised field elts (some v)
  | absent : KeyedLit elts → (∀ e ∈ elts, ∀ v, ¬ IsPair e field.name v) → Initialised field elts none
  | positional {v} : (∀ e ∈ elts, ∀ i a b, e ≠ .keyValue i a b) → elts[field.position]? = some v → Initialised field elts (some v)

/-- `e` is `T{elts}`, `&T{elts}`, or one of them with parentheses around the literal. -/
inductive LiteralOf (elts : List Node) : Node → Prop where
  | value {id} : LiteralOf elts (.compositeLit id elts)
  | address {id x} : LiteralOf elts x → LiteralOf elts (.unary id true x)
  | paren {id x} : LiteralOf elts x → LiteralOf elts (.paren id x)

theorem init_found {field : ErrorCodeField} {elts : List Node} {v : Option Node} (h : Initialised field elts v) {e : Node}
    (he : LiteralOf elts e) : findFieldInit field e = (v, []) := by
  induction he with
  | address _ ih => rw [(literal_wrapped field _ _).1]; exact ih
  | paren _ ih =>
    obtain ⟨h1, h2⟩ := (literal_wrapped field _ _).2
    exact Prod.ext (h1.trans (by rw [ih])) (h2.2 (by rw [ih]))
  | @value id =>
    cases h with
    | keyed hk hm hp => exact (keyed_literal field id elts hk).1 _ _ hm hp
    | absent hk hn => exact (keyed_literal field id elts hk).2 hn
    | @positional v plain hv =>
      have hlt : field.position < elts.length := (List.getElem?_eq_some_iff.1 hv).1
      have hlen : elts.length ≠ 0 := by omega
      have : findKeyed field.name elts = (false, none) := by
        cases elts with
        | nil => rfl
        | cons w vs =>
          unfold findKeyed
          split
          · rename_i heq; injection heq with h1 _; exact absurd h1 (plain w (by simp) _ _ _)
          · rename_i heq; injection heq with h1 _; exact absurd h1 (plain w (by simp) _ _ _)
          · rfl
      simp only [findFieldInit, findFieldInitIn, hlen, if_false, this, hlt, if_true, hv]

/-- The expression is the parameter of function `f` that is declared to be the error code. -/
def CodeParameter (env : Env) (f : FnId) (v : Node) : Prop :=
  ∃ i p, v.unparen = .ident i ∧ getParamPosition (env.func f).type i = some p ∧ (env.func f).declName.isSome ∧
    env.facts.ctor (env.funcObj f) = some p

/-- The expression gives a code: it is a constant of the right form (of at most 70 bytes, see C27). -/
def Gives (env : Env) (v : Node) (c : GoString) : Prop := env.value v.id = some (.str c) ∧ WellFormed c ∧ c.length ≤ 70

/-- The text of an expression in the position of an error code. -/
theorem text_exact (env : Env) (hp : PrintsAscii env.isPrint) (f : FnId) (v : Node) :
    (∀ c, (extractErrorCodeFromStringExpression env f v).1 = some c ↔ Gives env v c) ∧
    ((extractErrorCodeFromStringExpression env f v).2 = [] ↔
      (∃ c, Gives env v c) ∨ env.value v.id = some (.str []) ∨ (env.value v.id = none ∧ CodeParameter env f v)) := by
  cases hv : env.value v.id with
  | some k =>
    obtain ⟨h1, h2, -⟩ := constant_collected env hp f v k hv
    have one : ∀ c, (extractErrorCodeFromStringExpression env f v).1 = some c ↔ Gives env v c := by
      intro c
      constructor
      · intro h
        obtain ⟨rfl, hw⟩ := h1 c h
        refine ⟨hv, hw, ?_⟩
        apply Classical.byContradiction
        intro hl
        simp only [extractErrorCodeFromStringExpression, hv] at h
        have hne : c ≠ [] := by rcases hw with ⟨f, m, z, rfl, -⟩ | ⟨x, rfl, -⟩ <;> simp
        rw [(constant_code_partial env.isPrint hp c).2.2.1 (fun h => hl h.2) hne] at h
        cases h
      · rintro ⟨hv', hw, hl⟩
        rw [constant_accepted_partial env hp f v c hv' hw hl]
    refine ⟨one, ?_⟩
    rw [h2]
    constructor
    · rintro (rfl | ⟨c, h⟩)
      · exact .inr (.inl rfl)
      · exact .inl ⟨c, (one c).1 h⟩
    · rintro (⟨c, h⟩ | h | ⟨h, -⟩)
      · exact .inr ⟨c, (one c).2 h⟩
      · cases h; exact .inl rfl
      · cases h
  | none =>
    have hno : ∀ c, ¬ Gives env v c := fun c h => nomatch hv.symm.trans h.1
    simp only [extractErrorCodeFromStringExpression, hv]
    constructor
    · intro c
      refine ⟨fun h => ?_, fun h => absurd h (hno c)⟩
      split at h
      · split at h <;> cases h
      · cases h
    · constructor
      · intro h
        refine .inr (.inr ⟨trivial, ?_⟩)
        split at h
        · rename_i i hi
          split at h
          · rename_i p hp'
            simp only [checkIfExprIsErrorCodeParam] at h
            split at h
            · rename_i hf
              unfold importErrorConstructorFact at hf
              split at hf
              · rename_i hd
                exact ⟨i, p, hi, hp', hd, hf⟩
              · cases hf
            · cases h
          · cases h
        · cases h
      · rintro (⟨c, h⟩ | h | ⟨-, i, p, hi, hpos, hd, hf⟩)
        · exact absurd h (hno c)
        · cases h
        · simp [hi, hpos, checkIfExprIsErrorCodeParam, importErrorConstructorFact, hd, hf]

variable (env : Env) (f : FnId) (e : Node)

/-- **C46.** An error literal of a type with a `Code() string` method on the type or on its pointer, for which an error type is
recorded, contributes exactly the constant codes of the type and the code written for the code field. -/
theorem literal_codes (hp : PrintsAscii env.isPrint) {et : ErrorType} {elts : List Node} (lit : LiteralOf elts e)
    (coded : env.implCode (env.typeOf e.id) = true ∨ env.implCode (.pointer (env.typeOf e.id)) = true)
    (known : env.getErrorTypeForError (env.typeOf e.id) = some et)
    (init : ∀ field, et.field = some field → ∃ v, Initialised field elts v) (c : GoString) :
    c ∈ (extractErrorCodesFromAffector env f e).1 ↔
      c ∈ et.codes ∨ ∃ field v, et.field = some field ∧ Initialised field elts (some v) ∧ Gives env v c := by
  have leg : checkErrorTypeHasLegibleCode env e = true := by
    simp only [checkErrorTypeHasLegibleCode, Bool.or_eq_true]; exact coded
  simp only [extractErrorCodesFromAffector, leg, known, not_true_eq_false, if_false]
  cases hf : et.field with
  | none => simp [CodeSet.mem_union]
  | some field =>
    obtain ⟨v, hv⟩ := init field hf
    have hu : ∀ w, Initialised field elts w → w = v := fun w hw => by
      have a := init_found hw lit
      have b := init_found hv lit
      rw [a] at b; exact (Prod.mk.inj b).1
    simp only [extractFieldErrorCode, init_found hv lit]
    cases v with
    | none =>
      simp only [CodeSet.mem_union, CodeSet.mem_ofSlice, List.not_mem_nil, false_or]
      refine ⟨.inl, ?_⟩
      rintro (h | ⟨field', v, h1, h2, -⟩)
      · exact h
      · cases h1; cases hu _ h2
    | some v =>
      obtain ⟨t1, -⟩ := text_exact env hp f v
      have key : (∃ field' v', some field = some field' ∧ Initialised field' elts (some v') ∧ Gives env v' c) ↔ Gives env v c := by
        constructor
        · rintro ⟨field', v', h1, h2, h3⟩
          cases h1; cases hu _ h2; exact h3
        · intro h; exact ⟨field, v, rfl, hv, h⟩
      rw [key, ← t1 c]
      rcases hr : extractErrorCodeFromStringExpression env f v with ⟨code, ds⟩
      simp only [hr]
      cases code with
      | none => simp [CodeSet.mem_union]
      | some k => simp [CodeSet.mem_union, CodeSet.mem_add, eq_comm]

/-- **C46**, reports: such a literal is reported exactly when the expression for the code field is neither a well-formed constant (of
at most 70 bytes) nor the empty string nor the declared code parameter of the function. -/
theorem literal_silent_iff (hp : PrintsAscii env.isPrint) {et : ErrorType} {elts : List Node} (lit : LiteralOf elts e)
    (coded : env.implCode (env.typeOf e.id) = true ∨ env.implCode (.pointer (env.typeOf e.id)) = true)
    (known : env.getErrorTypeForError (env.typeOf e.id) = some et)
    (init : ∀ field, et.field = some field → ∃ v, Initialised field elts v) :
    (extractErrorCodesFromAffector env f e).2 = [] ↔
      ∀ field v, et.field = some field → Initialised field elts (some v) →
        (∃ c, Gives env v c) ∨ env.value v.id = some (.str []) ∨ (env.value v.id = none ∧ CodeParameter env f v) := by
  have leg : checkErrorTypeHasLegibleCode env e = true := by
    simp only [checkErrorTypeHasLegibleCode, Bool.or_eq_true]; exact coded
  simp only [extractErrorCodesFromAffector, leg, known, not_true_eq_false, if_false]
  cases hf : et.field with
  | none => simp
  | some field =>
    obtain ⟨v, hv⟩ := init field hf
    have hu : ∀ w, Initialised field elts w → w = v := fun w hw => by
      have a := init_found hw lit
      have b := init_found hv lit
      rw [a] at b; exact (Prod.mk.inj b).1
    simp only [extractFieldErrorCode, init_found hv lit]
    cases v with
    | none =>
      simp only [true_iff]
      intro field' v h1 h2
      cases h1; cases hu _ h2
    | some v =>
      obtain ⟨-, t2⟩ := text_exact env hp f v
      have : (∀ field' v', some field = some field' → Initialised field' elts (some v') →
          (∃ c, Gives env v' c) ∨ env.value v'.id = some (.str []) ∨ (env.value v'.id = none ∧ CodeParameter env f v')) ↔
          ((∃ c, Gives env v c) ∨ env.value v.id = some (.str []) ∨ (env.value v.id = none ∧ CodeParameter env f v)) := by
        constructor
        · intro h; exact h field v rfl hv
        · intro h field' v' h1 h2; cases h1; cases hu _ h2; exact h
      rw [this, ← t2]
      rcases hr : extractErrorCodeFromStringExpression env f v with ⟨code, ds⟩
      simp only [hr]
      cases code <;> simp

/-- **C46**: an expression of a type without `Code() string` method — on neither the type nor its pointer — contributes nothing and is
reported; so is one of a type that is not recorded as an error type. -/
theorem not_an_error :
    (env.implCode (env.typeOf e.id) = false ∧ env.implCode (.pointer (env.typeOf e.id)) = false →
      extractErrorCodesFromAffector env f e = ([], [⟨e.id, .noErrorCode⟩])) ∧
    (env.implCode (env.typeOf e.id) = true ∨ env.implCode (.pointer (env.typeOf e.id)) = true →
      env.getErrorTypeForError (env.typeOf e.id) = none →
      extractErrorCodesFromAffector env f e = ([], [⟨e.id, .invalidErrorType⟩])) := by
  constructor
  · rintro ⟨h1, h2⟩
    simp [extractErrorCodesFromAffector, checkErrorTypeHasLegibleCode, h1, h2]
  · intro h1 h2
    have leg : checkErrorTypeHasLegibleCode env e = true := by
      simp only [checkErrorTypeHasLegibleCode, Bool.or_eq_true]; exact h1
    simp [extractErrorCodesFromAffector, leg, h2]

/-! ## Non-vacuity: `&Err{"a-error"}` and `Err{"a-error"}`, where `Code` has a pointer receiver -/

open Run.Callback in
example : ∀ e ∈ [Node.unary 14 true (.compositeLit 15 [.basicLit 16]), .compositeLit 15 [.basicLit 16]],
    LiteralOf [.basicLit 16] e ∧
    (known.implCode (known.typeOf e.id) = true ∨ known.implCode (.pointer (known.typeOf e.id)) = true) ∧
    (∃ et field, known.getErrorTypeForError (known.typeOf e.id) = some et ∧ et.field = some field ∧
      Initialised field [.basicLit 16] (some (.basicLit 16))) ∧
    extractErrorCodesFromAffector known 0 e = ([b!"a-error"], []) := by
  have init : Initialised ⟨b!"TheCode", 0⟩ [.basicLit 16] (some (.basicLit 16)) := .positional (by simp) rfl
  intro e he
  simp only [List.mem_cons, List.not_mem_nil, or_false] at he
  rcases he with rfl | rfl
  · exact ⟨.address .value, .inl rfl, ⟨_, _, rfl, rfl, init⟩, rfl⟩
  · exact ⟨.value, .inr rfl, ⟨_, _, rfl, rfl, init⟩, rfl⟩

end Serum.Props.Literals
