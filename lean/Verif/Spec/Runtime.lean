import Verif.Spec.BodySpec
import Verif.Props.Calls
import Verif.Props.Extract
import Verif.Props.Claims

/-!
# Specification: which errors a function may return when it is executed

A semantics of the analysed Go program, independent of the analyzer: what error values expressions may
have and variables may hold, which functions they call, and which values are returned.  It abstracts from
control flow and from the order of statements: every assignment may have been executed any number of times,
in any order, and every expression may be evaluated whenever.  It also abstracts from aliasing: storing into
the code field of *any* error of some type is taken to affect *every* variable holding an error of this type.
So it allows everything a Go program may do, and more.  Where a value comes from something not modelled, it
may be *any* value.

An error value is represented by what its `Code` method may return: the constant codes of its type, or the
content of its code field (C29, `Props.ErrorTypes`, is the claim that tagged types behave like this).
-/

namespace Serum
namespace Runtime
open Flow Analyse Props.Calls Props.Extract Props.Claims

/-- A (non-nil) error value. -/
structure Obj where
  /-- its dynamic type -/
  et : ErrorType
  /-- the content of its code field -/
  field : GoString

/-- The codes which the error's `Code` method may return. -/
def Obj.may (o : Obj) (c : GoString) : Prop := c ∈ o.et.codes ∨ (o.et.field ≠ none ∧ c = o.field)

/-- Parts of the program which the syntax trees of the model leave out. -/
structure Extra where
  /-- the call expression is a conversion `T(x)` -/
  conversion : NodeId → Bool
  /-- the position of the first parameter's argument: 1 for `T.Method(receiver, …)`, else 0 -/
  shift : NodeId → Nat
  /-- the assignment is `+=` (or another assignment operator) -/
  op : NodeId → Bool
  /-- the expression `x.sel` is the code field of an error of this type -/
  codeField : NodeId → Option ErrorType
  /-- the expression is `*p`, denoting an error or a variable of error type -/
  deref : NodeId → Bool
  /-- the function has deferred calls which change its result after the return statement -/
  deferred : FnId → Bool
  /-- another function (a method, or a function it was passed to) may store this text in the code field of
  an error of this type -/
  foreign : ErrorType → GoString → Prop
  /-- calling this function or interface method, whose codes are known by its declaration, with this text for its error code parameter
  (if it has one) may return this error -/
  declared : Object → GoString → Obj → Prop

variable (env : Env) (X : Extra)

/-! ## Variables -/

/-- `x` is declared in the results or the body of `f`. -/
def Declared (f : FnId) (x : ObjId) : Prop :=
  startPos (env.func f) < (env.object x).pos ∧ (env.object x).pos < (env.func f).bodyEnd

/-- `x` is a loop variable of a range statement. -/
def RangeVar (body : List Node) (x : ObjId) : Prop :=
  ∃ (id : NodeId) (k v : Option Node) (e : Node) (b : List Node) (n : Node) (i : Ident), Occurs (.range id k v e b) body ∧ (k = some n ∨ v = some n) ∧ n.unparen = .ident i ∧ i.obj = some x

/-- `x` is a named result of a function literal. -/
def LitResult (body : List Node) (x : ObjId) : Prop :=
  ∃ id fn type b fields, Occurs (.funcLit id fn type b) body ∧ type.results = some fields ∧
    ∃ n ∈ fields.flatMap Field.names, n.obj = some x

/-- `&x` is used where its type is no error. -/
def AddressTaken (body : List Node) (x : ObjId) : Prop :=
  ∃ id e i, Occurs (.unary id true e) body ∧ e.unparen = .ident i ∧ i.obj = some x ∧ env.implError (env.typeOf id) = false

/-- `x += …` -/
def OpAssigned (body : List Node) (x : ObjId) : Prop :=
  ∃ id lhs rhs l i, Occurs (.assign id lhs rhs) body ∧ X.op id = true ∧ l ∈ lhs ∧ l.unparen = .ident i ∧ i.obj = some x

/-- `x` may get values other than by assignments and declarations in the function. -/
def Wild (body : List Node) (x : ObjId) : Prop :=
  LitParam body x ∨ RangeVar body x ∨ LitResult body x ∨ AddressTaken env body x ∨ OpAssigned X body x

/-- `x` is the error code parameter of `f`. -/
def CodeParam (f : FnId) (x : ObjId) : Prop :=
  ∃ position i, importErrorConstructorFact env f = some position ∧
    (paramNames (env.func f).type.params)[position]? = some i ∧ i.obj = some x

/-! ## Strings -/

/-- A variable or an expression. -/
inductive Place where
  | var (x : ObjId)
  | expr (e : Node)

/-- The texts a variable may hold and an expression may evaluate to, in function `f` called with `arg` as
error code argument. -/
inductive Text (f : FnId) (body : List Node) (arg : GoString) : Place → GoString → Prop where
  | constant {e s} : env.value e.id = some (.str s) → Text f body arg (.expr e) s
  | read {e i x s} : (∀ s, env.value e.id ≠ some (.str s)) → e.unparen = .ident i → i.obj = some x → Text f body arg (.var x) s →
      Text f body arg (.expr e) s
  | unknown {e s} : (∀ s, env.value e.id ≠ some (.str s)) → (¬ ∃ i x, e.unparen = .ident i ∧ i.obj = some x) →
      Text f body arg (.expr e) s
  | argument {x} : CodeParam env f x → Text f body arg (.var x) arg
  | zero {x} : Text f body arg (.var x) []
  | outside {x s} : ¬ CodeParam env f x → ¬ Declared env f x → Text f body arg (.var x) s
  | wild {x s} : Wild env X body x → Text f body arg (.var x) s
  | assigned {x e s} : Source env body x e → Text f body arg (.expr e) s → Text f body arg (.var x) s
  | destructured {x d s} : Destructured env body x d → Text f body arg (.var x) s

/-- The text passed as argument number `k`. -/
def ArgText (f : FnId) (body : List Node) (arg : GoString) (args : List Node) (k : Nat) (s : GoString) : Prop :=
  ∀ e, args[k]? = some e → Text env X f body arg (.expr e) s

/-- The content of the code field of a composite literal of type `et`. -/
def FieldInit (f : FnId) (body : List Node) (arg : GoString) (et : ErrorType) (elts : List Node) (s : GoString) : Prop :=
  ∀ field, et.field = some field →
    (∃ e v, e ∈ elts ∧ IsPair e field.name v ∧ Text env X f body arg (.expr v) s) ∨
    ((∀ e ∈ elts, ∀ id k v, e ≠ .keyValue id k v) ∧ ∃ v, elts[field.position]? = some v ∧ Text env X f body arg (.expr v) s) ∨
    ((∀ e ∈ elts, ∃ n v, IsPair e n v ∧ n ≠ field.name) ∧ s = [])

/-- The function may store `s` into the code field of errors of type `et`, or has this done. -/
inductive Stored (f : FnId) (body : List Node) (arg : GoString) (et : ErrorType) (s : GoString) : Prop where
  | foreign : X.foreign et s → Stored f body arg et s
  | assigned {id lhs rhs} {k : Nat} {l : Node} {sid y sel e} : Occurs (.assign id lhs rhs) body → lhs[k]? = some l →
      l.unparen = .selector sid y sel → X.codeField sid = some et → lhs.length = rhs.length → X.op id = false →
      rhs[k]? = some e → Text env X f body arg (.expr e) s → Stored f body arg et s
  | unknown {id lhs rhs} {k : Nat} {l : Node} {sid y sel} : Occurs (.assign id lhs rhs) body → lhs[k]? = some l →
      l.unparen = .selector sid y sel → X.codeField sid = some et → lhs.length ≠ rhs.length ∨ X.op id = true →
      Stored f body arg et s

/-- The function has an assignment `*p = …` to an error. -/
def Derefs (body : List Node) : Prop :=
  ∃ id lhs rhs l, Occurs (.assign id lhs rhs) body ∧ l ∈ lhs ∧ X.deref l.unparen.id = true

/-- `x` may hold the zero value of the error type `et` (not a pointer to it): it is declared without initial value, or by
`x, ok := y.(T)` (which gives the zero value if `y` is no `T`). -/
def ZeroValue (f : FnId) (body : List Node) (x : ObjId) (et : ErrorType) : Prop :=
  ((∃ names, (env.object x).decl = .valueSpec names []) ∨
    (∃ fields n, (env.func f).type.results = some fields ∧ n ∈ fields.flatMap Field.names ∧ n.obj = some x) ∨
    (∃ d id y t, Destructured env body x d ∧ d.source.unparen = .typeAssert id y t)) ∧
  ∃ i o, (Occurs (.ident i) body ∨ ∃ fields, (env.func f).type.results = some fields ∧ i ∈ fields.flatMap Field.names) ∧
    i.obj = some x ∧ env.typeOf i.id = .named o ∧ env.facts.errorType o = some et

/-! ## Errors -/

/-- What yields errors: executing function `f` (with error code argument `arg`), and inside `f`: evaluating an
expression, reading a variable, executing a call, calling the function held by a variable, calling the
function denoted by an expression. -/
inductive Origin where
  | ret (f : FnId) (arg : GoString)
  | expr (f : FnId) (body : List Node) (arg : GoString) (e : Node)
  | var (f : FnId) (body : List Node) (arg : GoString) (x : ObjId)
  | call (f : FnId) (body : List Node) (arg : GoString) (id : NodeId) (fn : Node) (args : List Node)
  | callVar (f : FnId) (body : List Node) (x : ObjId)
  | apply (f : FnId) (body : List Node) (e : Node)

/-- Expressions with a rule of their own below. -/
def modelled : Node → Bool
  | .ident _ | .basicLit _ | .compositeLit .. | .call .. => true
  | .unary _ isAnd _ => isAnd
  | _ => false

/-- The error type of an expression (or of what it points to). -/
def typeAt (id : NodeId) : Option ErrorType := env.getErrorTypeForError (env.typeOf id)

/-- The annotation of a return statement is true of the returned error: an overwriting annotation lists all
its codes; a removing one only removes codes it does not have. -/
def Honours (id : NodeId) (o : Obj) : Prop :=
  ∀ a, (getReturnStmtAnnotations (env.comments id)).1 = some a → ∀ c, o.may c →
    if a.shouldOverwrite then c = [] ∨ c ∈ a.overwrite else c ∉ a.subCodes ∨ c ∈ a.addCodes

/-- The call has a callee that declares the codes `S`. -/
def Trusted (id : NodeId) (q : Object) (S : CodeSet) : Prop := env.callee id = some q ∧ env.facts.codes q = some S

/-- The object denoted by an expression that denotes a function. -/
def Denotes (e : Node) : Option Object :=
  match e.unparen with
  | .ident i => env.uses i.id
  | .selector id _ sel => match env.selection id with | some (_, o) => some o | none => env.uses sel.id
  | _ => none

/-- `fn` is a variable (or something else declared in the file that is no function). -/
def FnVar (fn : Node) (x : ObjId) : Prop :=
  ∃ i, fn.unparen = .ident i ∧ i.obj = some x ∧ ∀ g, (env.object x).decl ≠ .funcDecl g

/-- The (non-nil) errors which come from something. -/
inductive Yields : Origin → Obj → Prop where
  -- functions
  | noBody {f arg o} : (env.func f).body = none → Yields (.ret f arg) o
  | deferred {f arg o} : X.deferred f = true → Yields (.ret f arg) o
  | returned {f body arg id results e o} : (env.func f).body = some body →
      WithinList ofFunction (.ret id results) body → ResultOf env f results e →
      Yields (.expr f body arg e) o → Honours env id o → Yields (.ret f arg) o
  -- expressions
  | read {f body arg e i x o} : e.unparen = .ident i → i.obj = some x → Yields (.var f body arg x) o →
      Yields (.expr f body arg e) o
  | unresolved {f body arg e i o} : e.unparen = .ident i → i.obj = none → i.name ≠ b!"nil" → Yields (.expr f body arg e) o
  | address {f body arg e id y i x o} : e.unparen = .unary id true y → y.unparen = .ident i → i.obj = some x →
      Yields (.var f body arg x) o → Yields (.expr f body arg e) o
  | addressUnresolved {f body arg e id y i o} : e.unparen = .unary id true y → y.unparen = .ident i → i.obj = none →
      i.name ≠ b!"nil" → Yields (.expr f body arg e) o
  | literal {f body arg e id elts et s} : e.unparen = .compositeLit id elts → typeAt env id = some et →
      FieldInit env X f body arg et elts s → Yields (.expr f body arg e) ⟨et, s⟩
  | pointerLiteral {f body arg e id y cid elts et s} : e.unparen = .unary id true y → y.unparen = .compositeLit cid elts →
      typeAt env id = some et → FieldInit env X f body arg et elts s → Yields (.expr f body arg e) ⟨et, s⟩
  | pointer {f body arg e id y et s} : e.unparen = .unary id true y → (∀ i, y.unparen ≠ .ident i) →
      (∀ cid elts, y.unparen ≠ .compositeLit cid elts) → typeAt env id = some et → Yields (.expr f body arg e) ⟨et, s⟩
  | basic {f body arg e id et s} : e.unparen = .basicLit id → typeAt env id = some et → Yields (.expr f body arg e) ⟨et, s⟩
  | untagged {f body arg e o} : (∀ i, e.unparen ≠ .ident i) → (∀ id fn args, e.unparen ≠ .call id fn args) →
      (∀ id y i, e.unparen = .unary id true y → y.unparen ≠ .ident i) →
      typeAt env e.unparen.id = none → Yields (.expr f body arg e) o
  | called {f body arg e id fn args o} : e.unparen = .call id fn args → Yields (.call f body arg id fn args) o →
      Yields (.expr f body arg e) o
  | unknown {f body arg e o} : modelled e.unparen = false → Yields (.expr f body arg e) o
  -- variables
  | outside {f body arg x o} : ¬ Declared env f x → Yields (.var f body arg x) o
  | wild {f body arg x o} : Wild env X body x → Yields (.var f body arg x) o
  | derefs {f body arg x o} : Derefs X body → Yields (.var f body arg x) o
  | zero {f body arg x et} : ZeroValue env f body x et → Yields (.var f body arg x) ⟨et, []⟩
  | assigned {f body arg x e o} : Source env body x e → Yields (.expr f body arg e) o → Yields (.var f body arg x) o
  | asserted {f body arg x d id y t o} : Destructured env body x d → d.source.unparen = .typeAssert id y t →
      Yields (.expr f body arg y) o → Yields (.var f body arg x) o
  | lastResult {f body arg x d id fn args n o} : Destructured env body x d → d.source.unparen = .call id fn args →
      env.typeOf fn.id = .signature n → d.position + 1 = env.sigResults n → Yields (.call f body arg id fn args) o →
      Yields (.var f body arg x) o
  | destructured {f body arg x d o} : Destructured env body x d → (∀ id y t, d.source.unparen ≠ .typeAssert id y t) →
      (∀ id fn args n, d.source.unparen = .call id fn args → env.typeOf fn.id = .signature n →
        d.position + 1 ≠ env.sigResults n) → Yields (.var f body arg x) o
  | stored {f body arg x o s} : Yields (.var f body arg x) o → Stored env X f body arg o.et s →
      Yields (.var f body arg x) { o with field := s }
  -- values between their evaluation and their use
  | storedExpr {f body arg e o s} : Yields (.expr f body arg e) o → Stored env X f body arg o.et s →
      Yields (.expr f body arg e) { o with field := s }
  | storedCall {f body arg id fn args o s} : Yields (.call f body arg id fn args) o → Stored env X f body arg o.et s →
      Yields (.call f body arg id fn args) { o with field := s }
  | derefsExpr {f body arg e o} : Derefs X body → Yields (.expr f body arg e) o
  | derefsCall {f body arg id fn args o} : Derefs X body → Yields (.call f body arg id fn args) o
  -- calls
  | conversion {f body arg id fn args et s} : X.conversion id = true → typeAt env fn.id = some et →
      Yields (.call f body arg id fn args) ⟨et, s⟩
  | untaggedConversion {f body arg id fn args o} : X.conversion id = true → typeAt env fn.id = none →
      Yields (.call f body arg id fn args) o
  | trusted {f body arg id fn args q S a o} : X.conversion id = false → Trusted env id q S →
      (∀ p, env.facts.ctor q = some p → ArgText env X f body arg args (p + X.shift id) a) → X.declared q a o →
      Yields (.call f body arg id fn args) o
  | own {f body arg id fn args g a o} : X.conversion id = false → (¬ ∃ q S, Trusted env id q S) → Defined env fn g →
      (∀ p, importErrorConstructorFact env g = some p → ArgText env X f body arg args (p + X.shift id) a) →
      Yields (.ret g a) o → Yields (.call f body arg id fn args) o
  | throughVar {f body arg id fn args x o} : X.conversion id = false → (¬ ∃ q S, Trusted env id q S) → FnVar env fn x →
      Yields (.callVar f body x) o → Yields (.call f body arg id fn args) o
  | unknownCallee {f body arg id fn args o} : X.conversion id = false → (¬ ∃ q S, Trusted env id q S) →
      (¬ ∃ g, Defined env fn g) → (¬ ∃ x, FnVar env fn x) → Yields (.call f body arg id fn args) o
  -- calls of function values
  | fnOutside {f body x o} : ¬ Declared env f x → Yields (.callVar f body x) o
  | fnWild {f body x o} : Wild env X body x → Yields (.callVar f body x) o
  | fnDestructured {f body x d o} : Destructured env body x d → Yields (.callVar f body x) o
  | fnCopied {f body x e j y o} : Source env body x e → VarUse env e j y → Yields (.callVar f body y) o →
      Yields (.callVar f body x) o
  | fnAssigned {f body x e o} : Source env body x e → (¬ ∃ j y, VarUse env e j y) → Yields (.apply f body e) o →
      Yields (.callVar f body x) o
  | applyTrusted {f body e q S a o} : Denotes env e = some q → env.facts.codes q = some S → X.declared q a o →
      Yields (.apply f body e) o
  | applyOwn {f body e g a o} : (¬ ∃ q S, Denotes env e = some q ∧ env.facts.codes q = some S) → Defined env e g →
      Yields (.ret g a) o → Yields (.apply f body e) o
  | applyUnknown {f body e o} : (¬ ∃ q S, Denotes env e = some q ∧ env.facts.codes q = some S) →
      (¬ ∃ g, Defined env e g) → Yields (.apply f body e) o

end Runtime
end Serum
