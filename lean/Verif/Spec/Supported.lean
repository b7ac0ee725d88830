import Verif.Spec.Runtime
import Verif.Props.Fields

/-!
# Specification: the programs for which the analyzer is sound

`Parsed` is what the Go parser and type checker guarantee.  `Supported` are the limits of the analyzer: each
of its conditions excludes programs for which C24 is false of the code (`Props/SoundnessLimits.lean` has
examples).
-/

namespace Serum
namespace Runtime
open Flow Analyse Props.Calls Props.Extract Props.Claims

variable (env : Env) (X : Extra) (f : FnId) (body : List Node)

/-- Guarantees of the parser and the type checker, for function `f`. -/
structure Parsed : Prop where
  /-- no variable is called `nil` -/
  nilVars : ∀ x e j y, Source env body x e → VarUse env e j y → j.name ≠ b!"nil"
  nilRefs : ∀ e i x, ErrExpr env f body e → RefersTo env e i → i.obj = some x → i.name ≠ b!"nil"
  nilParam : ∀ p i, importErrorConstructorFact env f = some p → (paramNames (env.func f).type.params)[p]? = some i →
    i.name ≠ b!"nil"
  nilCalled : ∀ id fn args i x, ErrCall env f body id fn args → fn.unparen = .ident i → i.obj = some x → i.name ≠ b!"nil"
  /-- the parser does not resolve selected identifiers; and no field is called `nil` -/
  selectors : ∀ e id y sel, ErrExpr env f body e → e.unparen = .selector id y sel → sel.obj = none ∧ sel.name ≠ b!"nil"
  /-- variables have no constant value, and parentheses do not change it -/
  variables : ∀ x e j y, Source env body x e → VarUse env e j y → ∀ s, env.value e.id ≠ some (.str s)
  values : ∀ x e, Source env body x e → env.value e.unparen.id = env.value e.id
  /-- parameters of a function with a named parameter are all named -/
  params : importErrorConstructorFact env f ≠ none → AllNamed (env.func f).type.params
  /-- the elements of a struct literal are all keyed, or all positional -/
  literals : ∀ e id elts et fd, ErrExpr env f body e →
    (e.unparen = .compositeLit id elts ∨ ∃ y cid, e.unparen = .unary id true y ∧ y.unparen = .compositeLit cid elts) →
    typeAt env id = some et → et.field = some fd → KeyedLit elts ∨ ∀ e ∈ elts, ∀ id k v, e ≠ .keyValue id k v
  /-- `&&x` is not allowed -/
  addresses : ∀ e id y id' y', ErrExpr env f body e → e.unparen = .unary id true y → y.unparen ≠ .unary id' true y'
  /-- conversions: `T(x)` has no callee; `T` is no function, and the type of the expression -/
  conversions : ∀ id fn args, ErrCall env f body id fn args → X.conversion id = true →
    env.callee id = none ∧ (¬ ∃ g, Defined env fn g) ∧ (∀ x, FnVar env fn x → (env.object x).decl = .typeSpec) ∧
    typeAt env id = typeAt env fn.id
  /-- other calls: the callee is the called function -/
  callees : ∀ id fn args, ErrCall env f body id fn args → X.conversion id = false →
    (∀ x, FnVar env fn x → (env.object x).decl ≠ .typeSpec) ∧
    (∀ g, Defined env fn g → (env.func g).declName.isSome = true → env.callee id = some (env.funcObj g))
  /-- what is assigned to a variable that is called: other variables, or functions -/
  functions : ∀ id fn args i x e, ErrCall env f body id fn args → fn.unparen = .ident i →
    Tracked env (env.func f) body none [] i x → Source env body x e → (¬ ∃ j y, VarUse env e j y) →
    (∀ j o, e.unparen = .ident j → j.obj = some o → ∃ g, (env.object o).decl = .funcDecl g) ∧
    (∀ g, Defined env e g → (env.func g).declName.isSome = true → Denotes env e = some (env.funcObj g))

/-- The limits of the analyzer, for function `f`. -/
structure Supported : Prop where
  /-- variables whose value may be returned are no loop variables of range statements, no named results of
  nested function literals, their address is not used other than as an error, and there is no `x += …` -/
  plain : ∀ x, ErrVar env f body x → ¬ Wild env X body x
  /-- they are not declared without initial value (and not by `x, ok := y.(T)`), if their type has constant codes -/
  zero : ∀ x et, ErrVar env f body x → ZeroValue env f body x et → et.codes = []
  /-- every assignment to a code field is `x.field = …` for a variable `x` whose value may be returned, and not
  inside another assignment -/
  stores : ∀ id lhs rhs (k : Nat) (l : Node) sid y sel et, Occurs (.assign id lhs rhs) body → lhs[k]? = some l →
    l.unparen = .selector sid y sel → X.codeField sid = some et →
    WithinList outsideAssignments (.assign id lhs rhs) body ∧ X.op id = false ∧
    ∃ i x fd, l = .selector sid (.ident i) sel ∧ i.obj = some x ∧ ErrVar env f body x ∧
      Props.Fields.FieldType env body x et ∧ et.field = some fd ∧ sel.name = fd.name
  /-- no assignment `*p = …` to errors -/
  derefs : ¬ Derefs X body
  /-- deferred calls do not change the result -/
  deferred : X.deferred f = false
  /-- conversions to types with both constant codes and a code field are not returned -/
  conversions : ∀ id fn args et, ErrCall env f body id fn args → X.conversion id = true → typeAt env fn.id = some et →
    et.codes = [] ∨ et.field = none
  /-- the called value's type is no error type (e.g. a function type with methods) -/
  callees : ∀ id fn args, ErrCall env f body id fn args → X.conversion id = false → env.callee id = none →
    extractErrorCodesFromTypeConversion env fn = []
  /-- error constructors are not called as `T.Method(receiver, …)` -/
  constructors : ∀ id fn args q p, ErrCall env f body id fn args → env.callee id = some q → env.facts.ctor q = some p →
    X.shift id = 0
  /-- function variables that are called hold what is assigned to them (see `plain`) -/
  called : ∀ id fn args i x, ErrCall env f body id fn args → fn.unparen = .ident i →
    Tracked env (env.func f) body none [] i x → ¬ Wild env X body x
  calledClean : ∀ id fn args i x, ErrCall env f body id fn args → fn.unparen = .ident i → i.obj = some x →
    CleanRoot env body i
  /-- the same for the error code parameter, and the variables assigned to it -/
  param : ∀ p i x, importErrorConstructorFact env f = some p → (paramNames (env.func f).type.params)[p]? = some i →
    Tracked env (env.func f) body i.obj [] i x → ¬ Wild env X body x
  paramClean : ∀ p i, importErrorConstructorFact env f = some p → (paramNames (env.func f).type.params)[p]? = some i →
    CleanRoot env body i

/-- Other functions store only codes of the error's type in code fields. -/
def ForeignStores : Prop := ∀ et s, X.foreign et s → s ∈ et.codes

/-- Functions and interface methods known by their declaration return only errors with declared codes (or the code they were given,
for error constructors). -/
def Promises : Prop := ∀ q S a o, env.facts.codes q = some S → X.declared q a o → ∀ c, o.may c →
  c = [] ∨ c ∈ S ∨ (env.facts.ctor q ≠ none ∧ c = a)

end Runtime
end Serum
