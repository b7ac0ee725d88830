import Verif.Spec.FlowSpec
import Verif.Analyse

/-!
# Specification: the error expressions and error variables of a function

Which expressions of a function body can end up being returned as the error, independent of any
traversal and of what was visited before: the result expressions of the return statements and,
transitively, everything assigned to a variable they refer to.
-/

namespace Serum
namespace Flow

variable (env : Env) (f : FnId) (body : List Node)

/-- Expression `e` hands on the value of identifier `i`: it is the identifier, its address, or a
selector ending in it (for which the analyzer looks at the selected identifier). -/
def RefersTo (e : Node) (i : Ident) : Prop :=
  e.unparen = .ident i ∨
  (∃ id x, e.unparen = .unary id true x ∧ env.implError (env.typeOf id) = true ∧ x.unparen = .ident i) ∨
  (∃ id x, e.unparen = .selector id x i)

/-- `e` hands on the value of the local variable `x`, named by `i`. -/
def VarRef (e : Node) (i : Ident) (x : ObjId) : Prop :=
  RefersTo env e i ∧ i.obj = some x ∧ i.name ≠ b!"nil" ∧ Local env (env.func f) body none i

/-- A return statement of the function itself (not of a nested function literal) whose result is not
overwritten by an annotation. -/
def Returns (id : NodeId) (results : List Node) : Prop :=
  WithinList ofFunction (.ret id results) body ∧
  ∀ a, (getReturnStmtAnnotations (env.comments id)).1 = some a → a.shouldOverwrite = false

/-- The expressions whose value can flow into one of the expressions `R`. -/
inductive ErrExprFrom (R : Node → Prop) : Node → Prop where
  | root {e} : R e → ErrExprFrom R e
  | assigned {e i x e'} : ErrExprFrom R e → VarRef env f body e i x → Source env body x e' → ErrExprFrom R e'
  | asserted {e i x d id y t} : ErrExprFrom R e → VarRef env f body e i x → Destructured env body x d →
      d.source.unparen = .typeAssert id y t → ErrExprFrom R y

/-- Those of them that are not just the use of a variable assigned to another variable: tracking starts anew there. -/
inductive ErrStartFrom (R : Node → Prop) : Node → Prop where
  | root {e} : R e → ErrStartFrom R e
  | assigned {e i x e'} : ErrExprFrom env f body R e → VarRef env f body e i x → Source env body x e' → (¬ ∃ j y, VarUse env e' j y) →
      ErrStartFrom R e'
  | asserted {e i x d id y t} : ErrExprFrom env f body R e → VarRef env f body e i x → Destructured env body x d →
      d.source.unparen = .typeAssert id y t → ErrStartFrom R y

/-- The local variables whose value can flow into one of the expressions `R`. -/
def ErrVarFrom (R : Node → Prop) (x : ObjId) : Prop := ∃ e i, ErrExprFrom env f body R e ∧ VarRef env f body e i x

/-- The codes removed by the annotation of return statement `id`. -/
def Removed (id : NodeId) : CodeSet :=
  match (getReturnStmtAnnotations (env.comments id)).1 with
  | some a => if a.shouldOverwrite then [] else a.subCodes
  | none => []

/-- The result expression of a return statement: the last one or, if there is none, the last named result. -/
def ResultOf (results : List Node) (e : Node) : Prop :=
  results.getLast? = some e ∨
  (results = [] ∧ ∃ fields field i, (env.func f).type.results = some fields ∧ fields.getLast? = some field ∧
    field.names.getLast? = some i ∧ e = .ident i)

/-- The result expressions of all return statements (whose result is not overwritten). -/
def AnyResult (e : Node) : Prop := ∃ id results, Returns env body id results ∧ ResultOf env f results e

/-- The expressions whose value can become the returned error. -/
abbrev ErrExpr : Node → Prop := ErrExprFrom env f body (AnyResult env f body)

/-- The local variables whose value can become the returned error. -/
abbrev ErrVar : ObjId → Prop := ErrVarFrom env f body (AnyResult env f body)

/-- The expressions whose value can become the returned error, if variables are followed wherever they are declared
(`ErrExpr` stops at variables that are not local). -/
inductive Flows : Node → Prop where
  | result {e} : AnyResult env f body e → Flows e
  | assigned {e i x e'} : Flows e → RefersTo env e i → i.obj = some x → Source env body x e' → Flows e'
  | asserted {e i x d id y t} : Flows e → RefersTo env e i → i.obj = some x → Destructured env body x d →
      d.source.unparen = .typeAssert id y t → Flows y

/-- Lexical scoping of parameters of nested function literals: the function itself cannot return them; and it does not return their
addresses or fields either. -/
structure ScopeOk : Prop where
  before : LitsBeforeUses env body
  clean : ∀ e i, ErrStartFrom env f body (AnyResult env f body) e → RefersTo env e i → CleanRoot env body i

end Flow

theorem Analyse.intoReturns_eq : Analyse.intoReturns = ofFunction := by funext n; cases n <;> rfl

theorem Analyse.intoFields_eq : Analyse.intoFields = outsideAssignments := by funext n; cases n <;> rfl

/-- The code takes the specified expression. -/
theorem Analyse.resultExpression_ok {env : Env} {f : FnId} {results : List Node} {e : Node} :
    Analyse.resultExpression (env.func f).type results = .ok e ↔ Flow.ResultOf env f results e := by
  unfold Flow.ResultOf
  cases results with
  | nil =>
    simp only [Analyse.resultExpression, List.getLast?_nil, reduceCtorEq, false_or, true_and]
    cases (env.func f).type.results with
    | none => simp
    | some fields =>
      cases hl : fields.getLast? with
      | none =>
        simp only [hl, reduceCtorEq, false_iff]
        rintro ⟨_, _, _, h, h', -⟩; cases h; rw [hl] at h'; cases h'
      | some field =>
        cases hn : field.names.getLast? with
        | none =>
          simp only [hl, hn, reduceCtorEq, false_iff]
          rintro ⟨_, _, _, h, h', h'', -⟩; cases h; rw [hl] at h'; cases h'; rw [hn] at h''; cases h''
        | some i =>
          simp only [hl, hn, Except.ok.injEq]
          constructor
          · rintro rfl; exact ⟨_, _, _, rfl, hl, hn, rfl⟩
          · rintro ⟨_, _, _, h, h', h'', rfl⟩; cases h; rw [hl] at h'; cases h'; rw [hn] at h''; cases h''; rfl
  | cons r rs =>
    simp only [Analyse.resultExpression, Except.ok.injEq, reduceCtorEq, false_and, or_false]
    rw [List.getLast?_eq_some_getLast (by simp)]
    simp

end Serum
