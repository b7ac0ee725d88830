import Verif.Spec.CrashSpec
import Verif.Spec.TypeReportSpec

/-!
# Specification: what is reported about a function body

Which expressions may become the returned error is said by `Flow.ErrExpr`, `Flow.ErrVar` (`Verif/Spec/BodySpec.lean`) and `ErrCall`
(`Verif/Props/Calls.lean`); which expressions flow into a variable by `Flow.Tracked`, `Flow.Source`, `Flow.Destructured`
(`Verif/Spec/FlowSpec.lean`).  Each problem is a constructor below, with the place and the message it is reported with.
-/

namespace Serum
namespace BodyReports
open Flow TypeReports

variable (env : Env) (f : FnId) (body : List Node)

/-- The problems of an expression that is used as error code. -/
inductive CodeProblem (v : Node) : Diag → Prop where
  /-- a constant that is no code -/
  | constant {k why} : env.value v.id = some k → NoCode k → Because env.isPrint k why → CodeProblem v ⟨v.id, .badConstant why⟩
  /-- neither a constant nor a parameter -/
  | other : env.value v.id = none → (∀ i p, v.unparen = .ident i → ¬ Parameter env f i p) → CodeProblem v ⟨v.id, .notConstant⟩
  /-- a parameter that is not declared to be the error code parameter of the function -/
  | parameter {i p} : env.value v.id = none → v.unparen = .ident i → Parameter env f i p →
      ¬ ((env.func f).declName ≠ none ∧ env.facts.ctor (env.funcObj f) = some p) → CodeProblem v ⟨i.id, .paramNotDeclared i.name⟩

/-- `m` is what remains of `e` after removing parentheses and `&`; problems of it are shown at `at_`. -/
inductive Opened (e : Node) : NodeId → Node → Prop where
  | start : Opened e e.id e
  | paren {at_ id x} : Opened e at_ (.paren id x) → Opened e at_ x
  | address {at_ id x} : Opened e at_ (.unary id true x) → Opened e x.id x

/-- The expression for field `field` in a literal with these elements: `name: v`, or `v` at its position if there are no keys. -/
inductive Initial (field : ErrorCodeField) (elts : List Node) (v : Node) : Prop where
  | keyed {pre post id i} : elts = pre ++ .keyValue id (.ident i) v :: post → i.name = field.name →
      (∀ m ∈ pre, ∃ id i w, m = .keyValue id (.ident i) w ∧ i.name ≠ field.name) → Initial field elts v
  | positional : (∀ m, elts.head? = some m → ∀ id k w, m ≠ .keyValue id k w) → elts[field.position]? = some v → Initial field elts v

/-- The problems of an expression that creates an error: a literal, its address, or a conversion. -/
inductive LiteralProblem (e : Node) : Diag → Prop where
  /-- neither the type nor its pointer has a `Code` method -/
  | noCode : env.implCode (env.typeOf e.id) = false → env.implCode (.pointer (env.typeOf e.id)) = false →
      LiteralProblem e ⟨e.id, .noErrorCode⟩
  /-- the type is not known as an error type -/
  | unknown : (env.implCode (env.typeOf e.id) = true ∨ env.implCode (.pointer (env.typeOf e.id)) = true) →
      env.getErrorTypeForError (env.typeOf e.id) = none → LiteralProblem e ⟨e.id, .invalidErrorType⟩
  /-- a problem of the expression for the code field -/
  | code {t field at_ id elts v d} : (env.implCode (env.typeOf e.id) = true ∨ env.implCode (.pointer (env.typeOf e.id)) = true) →
      env.getErrorTypeForError (env.typeOf e.id) = some t → t.field = some field → Opened e at_ (.compositeLit id elts) →
      Initial field elts v → CodeProblem env f v d → LiteralProblem e d
  /-- elements without keys, too few of them -/
  | short {t field at_ id elts m} : (env.implCode (env.typeOf e.id) = true ∨ env.implCode (.pointer (env.typeOf e.id)) = true) →
      env.getErrorTypeForError (env.typeOf e.id) = some t → t.field = some field → Opened e at_ (.compositeLit id elts) →
      elts.head? = some m → (∀ id k w, m ≠ .keyValue id k w) → elts.length ≤ field.position → LiteralProblem e ⟨at_, .noInitialiser⟩
  /-- no literal -/
  | noLiteral {t field at_ m} : (env.implCode (env.typeOf e.id) = true ∨ env.implCode (.pointer (env.typeOf e.id)) = true) →
      env.getErrorTypeForError (env.typeOf e.id) = some t → t.field = some field → Opened e at_ m →
      (∀ id elts, m ≠ .compositeLit id elts) → (∀ id x, m ≠ .paren id x) → (∀ id x, m ≠ .unary id true x) →
      LiteralProblem e ⟨at_, .noInitialiser⟩

/-- The problems of naming a function whose codes are not known from a declaration. -/
inductive NameProblem (fn : Node) : Diag → Prop where
  /-- a name of a dot-imported package -/
  | dotImport {i} : fn.unparen = .ident i → i.obj = none → env.functions i.name = none → NameProblem fn ⟨i.id, .dotImportUndeclared i.name⟩
  /-- a function of another package -/
  | foreign {id x sel t pkg} : fn.unparen = .selector id x sel → x.unparen = .ident t → env.pkgName t.id = some pkg →
      NameProblem fn ⟨id, .foreignUndeclared sel.name pkg⟩
  /-- a method that is not defined in the package -/
  | method {id x sel recv o} : fn.unparen = .selector id x sel → (∀ t, x.unparen = .ident t → env.pkgName t.id = none) →
      env.selection id = some (recv, o) → env.searchMethod recv sel.name = none → NameProblem fn ⟨fn.id, .calleeUndeclared⟩
  /-- neither a name, nor a selector, nor a function literal -/
  | unnamed : (∀ i, fn.unparen ≠ .ident i) → (∀ id x sel, fn.unparen ≠ .selector id x sel) →
      (∀ id g t b, fn.unparen ≠ .funcLit id g t b) → NameProblem fn ⟨fn.unparen.id, .unnamedFunction⟩

/-- The function or method that an assigned name denotes. -/
def Denotes (m : Node) (o : Object) : Prop :=
  (∃ i, m = .ident i ∧ env.uses i.id = some o) ∨
  (∃ id x sel, m = .selector id x sel ∧ ((∃ recv, env.selection id = some (recv, o)) ∨ (env.selection id = none ∧ env.uses sel.id = some o)))

/-- The expressions that flow into variable `i`, other than uses of variables. -/
def Value (param : Option ObjId) (i : Ident) (e : Node) : Prop :=
  ∃ x, Tracked env (env.func f) body param [] i x ∧ Source env body x e ∧ ¬ ∃ j y, VarUse env e j y

/-- `j` is `i` or a variable flowing into it, and not local to the function. -/
def Escapes (param : Option ObjId) (i j : Ident) : Prop :=
  ¬ Local env (env.func f) body param j ∧
    (j = i ∨ ∃ x e y, Tracked env (env.func f) body param [] i x ∧ Source env body x e ∧ VarUse env e j y)

/-- The problems of calling the function that is the value of variable `i`. -/
inductive VariableProblem (i : Ident) : Diag → Prop where
  /-- the function comes from outside -/
  | escapes {j} : Escapes env f body none i j → VariableProblem i ⟨j.id, .lambdaOutOfScope⟩
  /-- `…, v, … = e` for the variable -/
  | destructured {x d} : Tracked env (env.func f) body none [] i x → Destructured env body x d →
      VariableProblem i ⟨d.source.id, .lambdaDestructured d.target.name⟩
  /-- assigned: neither a function literal, nor a name, nor a selector -/
  | unsupported {e} : Value env f body none i e → (∀ id g t b, e.unparen ≠ .funcLit id g t b) → (∀ j, e.unparen ≠ .ident j) →
      (∀ id x sel, e.unparen ≠ .selector id x sel) → VariableProblem i ⟨e.unparen.id, .lambdaUnsupported i.name⟩
  /-- assigned: an error constructor -/
  | constructor {e o position} : Value env f body none i e → Denotes env e.unparen o → env.facts.ctor o = some position →
      VariableProblem i ⟨e.unparen.id, .constructorAsValue o⟩
  /-- assigned: a function without known codes -/
  | named {e d} : Value env f body none i e → (∀ o, Denotes env e.unparen o → env.facts.codes o = none) →
      (∃ j, e.unparen = .ident j) ∨ (∃ id x sel, e.unparen = .selector id x sel) → NameProblem env e.unparen d → VariableProblem i d

/-- The callee has no known codes, neither as function nor as an error type it converts to. -/
def NoCodes (id : NodeId) (fn : Node) : Prop :=
  (∀ o, env.callee id = some o → env.facts.codes o = none) ∧
  (env.callee id = none → ∀ t, env.getErrorTypeForError (env.typeOf fn.id) = some t → t.codes = [])

/-- The problems of a call. -/
inductive CallProblem (id : NodeId) (fn : Node) (args : List Node) : Diag → Prop where
  /-- a problem of the code handed to an error constructor -/
  | argument {o position a d} : env.callee id = some o → env.facts.ctor o = some position → args[position]? = some a →
      CodeProblem env f a d → CallProblem id fn args d
  | named {d} : NoCodes env id fn → NameProblem env fn d → CallProblem id fn args d
  /-- a conversion -/
  | conversion {i o d} : NoCodes env id fn → fn.unparen = .ident i → i.obj = some o → (env.object o).decl = .typeSpec →
      LiteralProblem env f (.call id fn args) d → CallProblem id fn args d
  /-- a call of a variable -/
  | viaVariable {i o d} : NoCodes env id fn → fn.unparen = .ident i → i.obj = some o → (∀ g, (env.object o).decl ≠ .funcDecl g) →
      (env.object o).decl ≠ .typeSpec → VariableProblem env f body i d → CallProblem id fn args d

/-- The expressions the analyzer understands as the source of an error. -/
def Understood (m : Node) : Prop :=
  (∃ id fn args, m = .call id fn args) ∨ (∃ i, m = .ident i) ∨ (∃ id isAnd x, m = .unary id isAnd x) ∨
  (∃ id elts, m = .compositeLit id elts) ∨ (∃ id, m = .basicLit id) ∨ (∃ id x sel, m = .selector id x sel) ∨
  (∃ id x t, m = .typeAssert id x t) ∨ (∃ id x y, m = .index id x y)

/-- The problems of an expression that may become the returned error, apart from those of calls and variables. -/
inductive ExprProblem (e : Node) : Diag → Prop where
  /-- an operator other than `&`, or the address of something that is no error -/
  | operator {id isAnd x} : e.unparen = .unary id isAnd x → ¬ (isAnd = true ∧ env.implError (env.typeOf id) = true) →
      ExprProblem e ⟨id, .notErrorType⟩
  /-- `&T{…}` -/
  | address {id x d} : e.unparen = .unary id true x → env.implError (env.typeOf id) = true → (∀ i, x.unparen ≠ .ident i) →
      LiteralProblem env f (.unary id true x) d → ExprProblem e d
  /-- `T{…}` -/
  | literal {id elts d} : e.unparen = .compositeLit id elts → LiteralProblem env f (.compositeLit id elts) d → ExprProblem e d
  /-- `"…"` -/
  | basic {id d} : e.unparen = .basicLit id → LiteralProblem env f (.basicLit id) d → ExprProblem e d
  | typeSwitch {id x} : e.unparen = .typeAssert id x none → ExprProblem e ⟨id, .typeSwitchUnsupported⟩
  | typeAssert {id x t} : e.unparen = .typeAssert id x (some t) → ExprProblem e ⟨id, .typeAssertUnsupported⟩
  | index {id x y} : e.unparen = .index id x y → ExprProblem e ⟨id, .indexUnsupported⟩
  | other : ¬ Understood e.unparen → ExprProblem e ⟨e.unparen.id, .exprUnsupported⟩

/-- The parameter of the function that is declared to be the error code. -/
def CodeParam (i : Ident) : Prop :=
  ∃ position, (env.func f).declName ≠ none ∧ env.facts.ctor (env.funcObj f) = some position ∧
    (slots (env.func f).type.params)[position]? = some (some i)

/-- The body has an assignment `…, i.name, … = …, e, …`. -/
def AssignsField (i : Ident) (name : GoString) (e : Node) : Prop :=
  ∃ (id : NodeId) (lhs rhs : List Node) (k : Nat) (sid : NodeId) (sel : Ident), WithinList outsideAssignments (.assign id lhs rhs) body ∧ lhs.length = rhs.length ∧
    lhs[k]? = some (.selector sid (.ident i) sel) ∧ sel.name = name ∧ rhs[k]? = some e

/-- The body has an assignment `…, i.name, … = e` of several values at once. -/
def DestructuresField (i : Ident) (name : GoString) (e : Node) : Prop :=
  ∃ (id : NodeId) (lhs rhs : List Node) (k : Nat) (sid : NodeId) (sel : Ident), WithinList outsideAssignments (.assign id lhs rhs) body ∧ lhs.length ≠ rhs.length ∧
    lhs[k]? = some (.selector sid (.ident i) sel) ∧ sel.name = name ∧ rhs.head? = some e

/-- A field of variable `x`, written `i`, is assigned. -/
def FieldAssigned (x : ObjId) (i : Ident) : Prop :=
  ∃ (id : NodeId) (lhs rhs : List Node) (k : Nat), WithinList outsideAssignments (.assign id lhs rhs) body ∧ FieldOf x lhs k i

/-- The problems of a function body, with their places. -/
inductive Problem : Diag → Prop where
  /-- an annotation of a return statement -/
  | annotation {id results d} : WithinList ofFunction (.ret id results) body →
      d ∈ (getReturnStmtAnnotations (env.comments id)).2 → Problem ⟨id, .annotation d⟩
  | expr {e d} : ErrExpr env f body e → ExprProblem env f e d → Problem d
  /-- a variable from outside the function -/
  | outside {e i} : ErrExpr env f body e → RefersTo env e i → ¬ Local env (env.func f) body none i → Problem ⟨i.id, .errorOutOfScope⟩
  | call {id fn args d} : Props.Calls.ErrCall env f body id fn args → CallProblem env f body id fn args d → Problem d
  /-- `…, err, … = fn(…)` where `err` is not the last result -/
  | position {x d id fn args n} : ErrVar env f body x → Destructured env body x d → d.source.unparen = .call id fn args →
      env.typeOf fn.id = .signature n → d.position + 1 ≠ env.sigResults n → Problem ⟨d.target.id, .nonLastResult⟩
  /-- `err.code = e` -/
  | field {x t fd e d} {i : Ident} : ErrVar env f body x → i.obj = some x → env.getErrorTypeForError (env.typeOf i.id) = some t →
      t.field = some fd → AssignsField body i fd.name e → CodeProblem env f e d → Problem d
  /-- `err.code, … = e` -/
  | fields {x t fd e} {i : Ident} : ErrVar env f body x → i.obj = some x → env.getErrorTypeForError (env.typeOf i.id) = some t →
      t.field = some fd → DestructuresField body i fd.name e → Problem ⟨e.id, .notConstant⟩
  /-- the code parameter is assigned a parameter or a variable from outside -/
  | paramEscapes {i j} : CodeParam env f i → Escapes env f body i.obj i j → Problem ⟨j.id, .paramOutOfScope⟩
  /-- the code parameter is assigned by `…, code, … = e` -/
  | paramDestructured {i x d} : CodeParam env f i → Tracked env (env.func f) body i.obj [] i x → Destructured env body x d →
      Problem ⟨d.source.id, .paramDestructured d.target.name⟩
  /-- the code parameter is assigned something that is no code -/
  | paramAssigned {i e d} : CodeParam env f i → Value env f body i.obj i e → CodeProblem env f e.unparen d → Problem d

/-- What the type checker guarantees for functions as values, and for the fields of a variable. -/
structure Typed : Prop where
  /-- called variables do not start with a parameter of a nested function literal -/
  clean : ∀ id fn args i, Props.Calls.ErrCall env f body id fn args → fn.unparen = .ident i → CleanRoot env body i
  /-- a name that flows into a called variable and is no variable is a function or a type (no constant is a function) -/
  functions : ∀ id fn args i e j o, Props.Calls.ErrCall env f body id fn args → fn.unparen = .ident i → Value env f body none i e →
    e.unparen = .ident j → j.obj = some o → (∃ g, (env.object o).decl = .funcDecl g) ∨ (env.object o).decl = .typeSpec
  /-- the code parameter does not start with a parameter of a nested function literal -/
  param : ∀ i, CodeParam env f i → CleanRoot env body i
  /-- a variable has one type -/
  oneType : ∀ x i i', FieldAssigned body x i → FieldAssigned body x i' → env.typeOf i.id = env.typeOf i'.id

end BodyReports
end Serum
