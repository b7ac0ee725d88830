import Verif.Spec.BodyReportSpec
import Verif.CodeValid

/-!
# Specification: the codes that come out of a function body

The counterpart of `Verif/Spec/BodyReportSpec.lean`: which codes a function body yields, given the codes `ρ g` of each function `g` of the
package.  Which expressions may become the returned error is said by `Flow.ErrExprFrom`, `Flow.ErrVarFrom` (`Verif/Spec/BodySpec.lean`);
which expressions flow into a variable by `BodyReports.Value`.
-/

namespace Serum
namespace BodyCodes
open Flow TypeReports BodyReports CodeFormat

variable (env : Env) (f : FnId) (body : List Node) (ρ : FnId → GoString → Prop)

/-- The expression is the constant `c`, which is a code. -/
def Text (v : Node) (c : GoString) : Prop := env.value v.id = some (.str c) ∧ WellFormed c ∧ c.length ≤ 70

/-- The codes of an expression that creates an error: a literal, its address, or a conversion. -/
inductive LiteralCode (e : Node) (c : GoString) : Prop where
  /-- a code of the type -/
  | const {t} : (env.implCode (env.typeOf e.id) = true ∨ env.implCode (.pointer (env.typeOf e.id)) = true) →
      env.getErrorTypeForError (env.typeOf e.id) = some t → c ∈ t.codes → LiteralCode e c
  /-- the value of the code field -/
  | field {t field at_ id elts v} : (env.implCode (env.typeOf e.id) = true ∨ env.implCode (.pointer (env.typeOf e.id)) = true) →
      env.getErrorTypeForError (env.typeOf e.id) = some t → t.field = some field → Opened e at_ (.compositeLit id elts) →
      Initial field elts v → Text env v c → LiteralCode e c

/-- The expression denotes function `g` of the package. -/
inductive Names (fn : Node) (g : FnId) : Prop where
  /-- a function of another file -/
  | package {i} : fn.unparen = .ident i → i.obj = none → env.functions i.name = some g → Names fn g
  | declared {i o} : fn.unparen = .ident i → i.obj = some o → (env.object o).decl = .funcDecl g → Names fn g
  | method {id x sel recv o} : fn.unparen = .selector id x sel → (∀ t, x.unparen = .ident t → env.pkgName t.id = none) →
      env.selection id = some (recv, o) → env.searchMethod recv sel.name = some g → Names fn g
  | literal {id t b} : fn.unparen = .funcLit id g t b → Names fn g

/-- The codes of the functions that are values of variable `i`. -/
inductive VariableCode (i : Ident) (c : GoString) : Prop where
  | literal {e id g t b} : Value env f body none i e → e.unparen = .funcLit id g t b → ρ g c → VariableCode i c
  /-- a function with known codes -/
  | known {e o codes} : Value env f body none i e → Denotes env e.unparen o → env.facts.codes o = some codes → c ∈ codes → VariableCode i c
  /-- a function of the package -/
  | named {e g} : Value env f body none i e → (∃ j, e.unparen = .ident j) ∨ (∃ id x sel, e.unparen = .selector id x sel) →
      (∀ o, Denotes env e.unparen o → env.facts.codes o = none) → Names env e.unparen g → ρ g c → VariableCode i c

/-- The codes of a call. -/
inductive CallCode (id : NodeId) (fn : Node) (args : List Node) (c : GoString) : Prop where
  /-- the codes known for the callee -/
  | known {o codes} : env.callee id = some o → env.facts.codes o = some codes → c ∈ codes → CallCode id fn args c
  /-- the code handed to an error constructor -/
  | argument {o position a} : env.callee id = some o → env.facts.ctor o = some position → args[position]? = some a → Text env a c →
      ((∃ codes, env.facts.codes o = some codes) ∨ (∃ g, Names env fn g) ∨ NameProblem env fn ⟨fn.id, .calleeUndeclared⟩) →
      CallCode id fn args c
  /-- the codes of the error type in a conversion -/
  | type {t} : env.callee id = none → env.getErrorTypeForError (env.typeOf fn.id) = some t → c ∈ t.codes → CallCode id fn args c
  /-- a function of the package -/
  | named {g} : NoCodes env id fn → Names env fn g → ρ g c → CallCode id fn args c
  | conversion {i o} : NoCodes env id fn → fn.unparen = .ident i → i.obj = some o → (env.object o).decl = .typeSpec →
      LiteralCode env (.call id fn args) c → CallCode id fn args c
  | viaVariable {i o} : NoCodes env id fn → fn.unparen = .ident i → i.obj = some o → (∀ g, (env.object o).decl ≠ .funcDecl g) →
      (env.object o).decl ≠ .typeSpec → VariableCode env f body ρ i c → CallCode id fn args c

/-- The codes of an expression that may become the returned error; those of variables come from what flows into them. -/
inductive ExprCode (e : Node) (c : GoString) : Prop where
  | call {id fn args} : e.unparen = .call id fn args → CallCode env f body ρ id fn args c → ExprCode e c
  /-- `&T{…}` -/
  | address {id x} : e.unparen = .unary id true x → env.implError (env.typeOf id) = true → (∀ i, x.unparen ≠ .ident i) →
      LiteralCode env (.unary id true x) c → ExprCode e c
  /-- `T{…}` -/
  | literal {id elts} : e.unparen = .compositeLit id elts → LiteralCode env (.compositeLit id elts) c → ExprCode e c
  /-- `"…"` -/
  | basic {id} : e.unparen = .basicLit id → LiteralCode env (.basicLit id) c → ExprCode e c

/-- The codes of a return statement. -/
inductive ReturnCode (id : NodeId) (results : List Node) (c : GoString) : Prop where
  /-- the annotation states the codes -/
  | stated {a} : (getReturnStmtAnnotations (env.comments id)).1 = some a → a.shouldOverwrite = true → c ∈ a.overwrite → ReturnCode id results c
  /-- the annotation adds the code -/
  | added {a} : (getReturnStmtAnnotations (env.comments id)).1 = some a → a.shouldOverwrite = false → c ∈ a.addCodes → ReturnCode id results c
  | expr {e} : Returns env body id results → ErrExprFrom env f body (ResultOf env f results) e → ExprCode env f body ρ e c →
      c ∉ Removed env id → ReturnCode id results c
  /-- `…, err = fn(…)` -/
  | last {x d cid fn args n} : Returns env body id results → ErrVarFrom env f body (ResultOf env f results) x → Destructured env body x d →
      d.source.unparen = .call cid fn args → env.typeOf fn.id = .signature n → d.position + 1 = env.sigResults n →
      CallCode env f body ρ cid fn args c → c ∉ Removed env id → ReturnCode id results c

/-- The codes of a function body. -/
inductive BodyCode (c : GoString) : Prop where
  | returned {id results} : WithinList ofFunction (.ret id results) body → ReturnCode env f body ρ id results c → BodyCode c
  /-- `err.code = e` -/
  | field {x t fd e} {i : Ident} : ErrVar env f body x → i.obj = some x → env.getErrorTypeForError (env.typeOf i.id) = some t →
      t.field = some fd → AssignsField body i fd.name e → Text env e c → BodyCode c
  /-- the code parameter is assigned a code -/
  | param {i e} : CodeParam env f i → Value env f body i.obj i e → Text env e.unparen c → BodyCode c

/-- No annotation removes codes of a variable that another return statement may return, too. -/
def Apart : Prop :=
  ∀ id results id' results' x, Returns env body id results → Returns env body id' results' → id ≠ id' →
    ErrVarFrom env f body (ResultOf env f results) x → ErrVarFrom env f body (ResultOf env f results') x → Removed env id' = []

/-- The codes of a function of the package, in the least assignment of codes to functions in which each function has the codes of its
body. -/
def Derived (f : FnId) (c : GoString) : Prop :=
  ∀ ρ : FnId → GoString → Prop, (∀ g body c, (env.func g).body = some body → BodyCode env g body ρ c → ρ g c) → ρ f c

end BodyCodes
end Serum
