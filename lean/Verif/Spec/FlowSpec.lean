import Verif.Spec.Within
import Verif.Taint

/-!
# Specification: which expressions can flow into a variable

Independent of any traversal: an assignment or initialisation somewhere in the function body makes
its right-hand side a source of the variable; variables are followed transitively.
-/

namespace Serum
namespace Flow

variable (env : Env) (function : FuncDef) (body : List Node) (param : Option ObjId)

/-- `e` is the use of a variable: an identifier (possibly in parentheses) denoting variable `y`. -/
def VarUse (e : Node) (i : Ident) (y : ObjId) : Prop :=
  e.unparen = .ident i ∧ i.obj = some y ∧ (env.object y).kind = .var

/-- `x` is declared by `var …, x, … = …, e, …`. -/
def InitialisedBy (x : ObjId) (e : Node) : Prop :=
  ∃ pre n post values, (env.object x).decl = .valueSpec (pre ++ n :: post) values ∧
    (∀ m ∈ pre, m.obj ≠ some x) ∧ n.obj = some x ∧
    values.length = (pre ++ n :: post).length ∧ values[pre.length]? = some e

/-- The body has an assignment `…, x, … = …, e, …` (or `:=`), possibly inside a function literal. -/
def AssignedBy (x : ObjId) (e : Node) : Prop :=
  ∃ id lhs rhs, Occurs (.assign id lhs rhs) body ∧ lhs.length = rhs.length ∧
    ∃ (k : Nat) (l : Node) (t : Ident), lhs[k]? = some l ∧ l.unparen = .ident t ∧ t.obj = some x ∧ rhs[k]? = some e

/-- `e` is assigned to `x`. -/
def Source (x : ObjId) (e : Node) : Prop := InitialisedBy env x e ∨ AssignedBy body x e

/-- `x` is declared or assigned by destructuring: `…, x, … = e` with several variables and one value. -/
def Destructured (x : ObjId) (d : Destruct) : Prop :=
  (∃ pre post values, (env.object x).decl = .valueSpec (pre ++ d.target :: post) values ∧
    (∀ m ∈ pre, m.obj ≠ some x) ∧ d.target.obj = some x ∧
    values.length ≠ (pre ++ d.target :: post).length ∧ d.position = pre.length ∧
    values.head? = some d.source) ∨
  (∃ id lhs rhs, Occurs (.assign id lhs rhs) body ∧ lhs.length ≠ rhs.length ∧
    ∃ l, lhs[d.position]? = some l ∧ l.unparen = .ident d.target ∧ d.target.obj = some x ∧
      rhs.head? = some d.source)

/-- `p` is a parameter of a function literal in the body. -/
def LitParam (p : ObjId) : Prop :=
  ∃ id fn type b, Occurs (.funcLit id fn type b) body ∧
    ∃ n ∈ type.params.flatMap Field.names, n.obj = some p

/-- Where the declarations belonging to a function start: at its results, else at its body. -/
def startPos : Nat := if function.type.results.isSome then function.type.resultsPos else function.bodyPos

/-- The identifier denotes something declared in the results or the body of the function (or nil). -/
def Inside (i : Ident) : Prop :=
  i.name = b!"nil" ∨
    ∃ o, i.obj = some o ∧ startPos function < (env.object o).pos ∧ (env.object o).pos < function.bodyEnd

/-- Identifiers that may be followed: declared inside the function and no parameter of a function
literal, or the error code parameter that is being tracked. -/
def Local (i : Ident) : Prop :=
  (param ≠ none ∧ param = i.obj) ∨ (Inside env function i ∧ ∀ o, i.obj = some o → ¬ LitParam body o)

/-- The variables tracked from variable `x` (used as `i`), not going through `seen`. -/
inductive Tracked (seen : List ObjId) (i : Ident) : ObjId → Prop where
  | start {x} : i.obj = some x → i.name ≠ b!"nil" → Local env function body param i → x ∉ seen →
      Tracked seen i x
  | step {x y e j} : Tracked seen i x → Source env body x e → VarUse env e j y → j.name ≠ b!"nil" →
      Local env function body param j → y ∉ seen → Tracked seen i y

/-- `p` is `x`, or the initial value of `x`, or the initial value of that variable, and so on. -/
inductive InitChain : ObjId → ObjId → Prop where
  | refl (x) : InitChain x x
  | step {x y p e i} : InitialisedBy env x e → VarUse env e i y → InitChain y p → InitChain x p

/-- Lexical scoping of parameters of function literals: an assignment that uses such a parameter, or a
variable whose initial value leads to one, comes after the start of the literal in source order. -/
def LitsBeforeUses : Prop :=
  ∀ pre id lhs rhs post, Node.inspectList (fun _ => true) body = pre ++ .assign id lhs rhs :: post →
    ∀ r ∈ rhs, ∀ i y p, VarUse env r i y → InitChain env y p → LitParam body p →
      ∃ lid fn type b, .funcLit lid fn type b ∈ pre ∧ ∃ n ∈ type.params.flatMap Field.names, n.obj = some p

/-- The initial value of the variable does not lead to a parameter of a function literal. -/
def CleanRoot (i : Ident) : Prop := ∀ x p, i.obj = some x → InitChain env x p → ¬ LitParam body p

end Flow
end Serum
