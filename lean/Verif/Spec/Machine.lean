import Verif.Spec.Runtime

/-!
# Specification: executing a program step by step

`Runtime.Yields` describes the errors a function may return without a notion of program state.  Here is a machine with states:
a heap of error values, which may be shared (aliased) and changed; variables, each execution of a function having its own; function
values that keep the variables of the function they were created in; and functions that are being executed, with the values of the
expressions evaluated so far.  `Props/Machine.lean` shows that whatever the machine returns is described by `Yields`.

The machine does not have a program counter: the functions being executed may evaluate any expression and execute any statement of
their bodies at any time, any number of times, and in any order (concurrently with others).  So an execution of the Go program, which
follows the control flow, is one of the executions of the machine.  What is not modelled (`Unmodelled`: channels, maps, fields, calls of
unknown functions, …) may evaluate to any value that exists.

What it does *not* allow (each a limit of the analyzer, see `Spec/Supported.lean`, or of this model):
* storing into the code field of an error that is also held by an execution which is none of the storing function (or of the functions
  the storing literal is nested in), unless `Extra.foreign` says so;
* a return statement whose annotation is not true of the returned error (`Honours`);
* deferred functions which change the result, or functions which recover, unless `Extra.deferred` says so;
* the assignment of the results of a return statement to named result variables, which only deferred functions can see.
-/

universe u

namespace Serum.Machine
open Flow Analyse Runtime Props.Calls Props.Extract

/-! ## States -/

/-- An execution of function `fn` of package `pkg`, with `arg` as error code argument (if it has an error code parameter). -/
structure Frame (P : Type u) where
  pkg : P
  fn : FnId
  body : List Node
  arg : GoString

/-- A function value: the function, with the variables it has from the functions it is nested in, and the executions of these
functions it was created in (innermost first).  Both are empty for declared functions. -/
structure Closure (P : Type u) where
  pkg : P
  fn : FnId
  vars : ObjId → Option Nat
  outer : List (Frame P)

/-- Values.  Pointers to errors, and errors held by value, are both addresses of errors. -/
inductive Val (P : Type u) where
  | nil
  | text (s : GoString)
  | err (r : Nat)
  | fn (c : Closure P)
  | other

/-- An error value in the heap. -/
structure Thing (P : Type u) where
  obj : Obj
  /-- it is the memory of a variable of error type (not a pointer), declared in an execution with these frames -/
  var : Option (ObjId × List (Frame P))
  /-- the return statements by which it was returned -/
  via : List (P × NodeId)

/-- A variable: every execution of a declaration makes a new one. -/
structure Cell (P : Type u) where
  var : ObjId
  /-- the execution in which it was declared, and those this one is nested in -/
  scope : List (Frame P)
  val : Val P

/-- A function being executed. -/
structure Act (P : Type u) where
  /-- the execution itself, and then those of the functions it is nested in -/
  scope : List (Frame P)
  /-- its variables -/
  vars : ObjId → Option Nat
  /-- values of expressions that were evaluated -/
  temps : List (Node × Val P)
  /-- who waits for the result, and the call expression -/
  caller : Option (Nat × Node)

structure State (P : Type u) where
  objs : Nat → Option (Thing P)
  cells : Nat → Option (Cell P)
  acts : Nat → Option (Act P)
  /-- the function values that were created -/
  fns : List (Closure P)

/-- Nothing is executed yet. -/
def State.start {P : Type u} : State P := ⟨fun _ => none, fun _ => none, fun _ => none, []⟩

/-- Set an entry. -/
def put {α : Type u} (m : Nat → Option α) (k : Nat) (v : α) : Nat → Option α := fun i => if i = k then some v else m i

variable {P : Type u} (env : P → Env) (X : P → Extra) (exec : Object → P → FnId → Prop)

/-- The function value of a declared function. -/
def Closure.top (p : P) (g : FnId) : Closure P := ⟨p, g, fun _ => none, []⟩

/-- The value exists. -/
def State.Has (s : State P) : Val P → Prop
  | .err r => s.objs r ≠ none
  | .fn c => (∃ p g, c = .top p g) ∨ c ∈ s.fns
  | _ => True

/-- There is an error with this content at this address, and it is not the memory of a variable. -/
def State.Holds (s : State P) (r : Nat) (o : Obj) : Prop := ∃ t, s.objs r = some t ∧ t.obj = o ∧ t.var = none

/-- The execution holds the error, in a variable or as the value of an expression. -/
def State.Uses (s : State P) (F : Frame P) (r : Nat) : Prop :=
  (∃ n cell, s.cells n = some cell ∧ F ∈ cell.scope ∧ cell.val = .err r) ∨
  (∃ a A e, s.acts a = some A ∧ F ∈ A.scope ∧ (e, .err r) ∈ A.temps)

/-! ## Values of expressions -/

/-- `x` is declared elsewhere. -/
def Outside (F : Frame P) (x : ObjId) : Prop := ¬ Declared (env F.pkg) F.fn x ∧ ¬ CodeParam (env F.pkg) F.fn x

/-- `x` is declared elsewhere (e.g. a global variable or a parameter), or it may get values in ways that are not modelled. -/
def Free (F : Frame P) (x : ObjId) : Prop := Outside env F x ∨ Wild (env F.pkg) (X F.pkg) F.body x

/-- The expression is no constant. -/
def Varying (p : P) (e : Node) : Prop := ∀ s, (env p).value e.id ≠ some (.str s)

/-- Expressions for which only the kind of value is known, and their values. -/
inductive Unmodelled (s : State P) (p : P) (e : Node) : Val P → Prop where
  | text {t} : Varying env p e → (¬ ∃ i x, e.unparen = .ident i ∧ i.obj = some x) → Unmodelled s p e (.text t)
  | unresolved {i r} : e.unparen = .ident i → i.obj = none → i.name ≠ b!"nil" → Unmodelled s p e (.err r)
  | addressUnresolved {id y i r} : e.unparen = .unary id true y → y.unparen = .ident i → i.obj = none → i.name ≠ b!"nil" →
      Unmodelled s p e (.err r)
  | pointer {id y r t} : e.unparen = .unary id true y → (∀ i, y.unparen ≠ .ident i) → (∀ cid elts, y.unparen ≠ .compositeLit cid elts) →
      s.objs r = some t → typeAt (env p) id = some t.obj.et → Unmodelled s p e (.err r)
  | basic {id r t} : e.unparen = .basicLit id → s.objs r = some t → typeAt (env p) id = some t.obj.et → Unmodelled s p e (.err r)
  | untagged {r} : (∀ i, e.unparen ≠ .ident i) → (∀ id fn args, e.unparen ≠ .call id fn args) →
      (∀ id y i, e.unparen = .unary id true y → y.unparen ≠ .ident i) → typeAt (env p) e.unparen.id = none → Unmodelled s p e (.err r)
  | unknown {r} : modelled e.unparen = false → Unmodelled s p e (.err r)
  | conversion {id fn args r t} : e.unparen = .call id fn args → (X p).conversion id = true → s.objs r = some t →
      typeAt (env p) fn.id = some t.obj.et → Unmodelled s p e (.err r)
  | untaggedConversion {id fn args r} : e.unparen = .call id fn args → (X p).conversion id = true → typeAt (env p) fn.id = none →
      Unmodelled s p e (.err r)
  | unknownCallee {id fn args r} : e.unparen = .call id fn args → (X p).conversion id = false → (¬ ∃ q S, Trusted (env p) id q S) →
      (¬ ∃ g, Defined (env p) fn g) → (¬ ∃ x, FnVar (env p) fn x) → Unmodelled s p e (.err r)
  | fn {c} : (¬ ∃ j y, VarUse (env p) e j y) → (¬ ∃ q S, Denotes (env p) e = some q ∧ (env p).facts.codes q = some S) →
      (¬ ∃ g, Defined (env p) e g) → Unmodelled s p e (.fn c)

/-- The content of the code field of a composite literal of type `et`, whose elements were evaluated. -/
def Initial (A : Act P) (et : ErrorType) (elts : List Node) (t : GoString) : Prop :=
  ∀ field, et.field = some field →
    (∃ e v, e ∈ elts ∧ IsPair e field.name v ∧ (v, .text t) ∈ A.temps) ∨
    ((∀ e ∈ elts, ∀ id k v, e ≠ .keyValue id k v) ∧ ∃ v, elts[field.position]? = some v ∧ (v, .text t) ∈ A.temps) ∨
    ((∀ e ∈ elts, ∃ n v, IsPair e n v ∧ n ≠ field.name) ∧ t = [])

/-- `e` is a function literal; when evaluated by `A`, the function value is `c`: it has the variables of `A` declared outside of the
literal. -/
def LiteralValue (A : Act P) (F : Frame P) (e : Node) (c : Closure P) : Prop :=
  ∃ id g type b, e.unparen = .funcLit id g type b ∧ Occurs (.funcLit id g type b) F.body ∧
    ((env F.pkg).func g).body = some b ∧ ((env F.pkg).func g).type = type ∧
    c.pkg = F.pkg ∧ c.fn = g ∧ c.outer = A.scope ∧
    ∀ x, (Declared (env F.pkg) g x ∨ CodeParam (env F.pkg) g x → c.vars x = none) ∧
      (¬ Declared (env F.pkg) g x → ¬ CodeParam (env F.pkg) g x → c.vars x = A.vars x)

/-- `e` denotes the declared function (or method) `g`. -/
def Names (p : P) (e : Node) (g : FnId) : Prop := Defined (env p) e g ∧ ∀ id h type b, e.unparen ≠ .funcLit id h type b

/-- The values which `e` may have when it is evaluated by `A` (an execution `F`). -/
inductive Value (s : State P) (A : Act P) (F : Frame P) (e : Node) : Val P → Prop where
  | nil : Value s A F e .nil
  | other : Value s A F e .other
  | constant {t} : (env F.pkg).value e.id = some (.str t) → Value s A F e (.text t)
  | read {i x n cell} : VarUse (env F.pkg) e i x → Varying env F.pkg e → A.vars x = some n → s.cells n = some cell → Value s A F e cell.val
  | free {i x v} : VarUse (env F.pkg) e i x → Varying env F.pkg e → (∀ G ∈ A.scope, Free env X G x) → s.Has v → Value s A F e v
  | address {id y i x n cell r} : e.unparen = .unary id true y → VarUse (env F.pkg) y i x → A.vars x = some n → s.cells n = some cell →
      cell.val = .err r → Value s A F e (.err r)
  | addressFree {id y i x r} : e.unparen = .unary id true y → VarUse (env F.pkg) y i x → (∀ G ∈ A.scope, Free env X G x) →
      s.Has (.err r) → Value s A F e (.err r)
  | composite {id elts et t r} : e.unparen = .compositeLit id elts → typeAt (env F.pkg) id = some et → Initial A et elts t →
      s.Holds r ⟨et, t⟩ → Value s A F e (.err r)
  | pointerComposite {id y cid elts et t r} : e.unparen = .unary id true y → y.unparen = .compositeLit cid elts →
      typeAt (env F.pkg) id = some et → Initial A et elts t → s.Holds r ⟨et, t⟩ → Value s A F e (.err r)
  | copy {r t r'} : (e, .err r) ∈ A.temps → s.objs r = some t → s.Holds r' t.obj → Value s A F e (.err r')
  | literal {c} : LiteralValue env A F e c → Value s A F e (.fn c)
  | trusted {q S k g} : (¬ ∃ j y, VarUse (env F.pkg) e j y) → Denotes (env F.pkg) e = some q → (env F.pkg).facts.codes q = some S →
      exec q k g → Value s A F e (.fn (.top k g))
  | own {g} : (¬ ∃ j y, VarUse (env F.pkg) e j y) → (¬ ∃ q S, Denotes (env F.pkg) e = some q ∧ (env F.pkg).facts.codes q = some S) →
      Names env F.pkg e g → Value s A F e (.fn (.top F.pkg g))
  | unmodelled {v} : Unmodelled env X s F.pkg e v → s.Has v → Value s A F e v

/-- The execution assigns the value to its variable `x`. -/
inductive Written (s : State P) (A : Act P) (F : Frame P) (x : ObjId) : Val P → Prop where
  | assigned {e v} : Source (env F.pkg) F.body x e → (e, v) ∈ A.temps → Written s A F x v
  | asserted {d id y t v} : Destructured (env F.pkg) F.body x d → d.source.unparen = .typeAssert id y t → (y, v) ∈ A.temps → Written s A F x v
  | lastResult {d id fn args n v} : Destructured (env F.pkg) F.body x d → d.source.unparen = .call id fn args →
      (env F.pkg).typeOf fn.id = .signature n → d.position + 1 = (env F.pkg).sigResults n → (d.source, v) ∈ A.temps → Written s A F x v
  | destructured {d v} : Destructured (env F.pkg) F.body x d → (∀ id y t, d.source.unparen ≠ .typeAssert id y t) →
      (∀ id fn args n, d.source.unparen = .call id fn args → (env F.pkg).typeOf fn.id = .signature n →
        d.position + 1 ≠ (env F.pkg).sigResults n) → s.Has v → Written s A F x v
  | zero {et r} : ZeroValue (env F.pkg) F.fn F.body x et → s.Holds r ⟨et, []⟩ → Written s A F x (.err r)
  | zeroText : Written s A F x (.text [])
  | nil : Written s A F x .nil
  | other : Written s A F x .other

/-- The variable may get the value. -/
def Assigns (s : State P) (n : Nat) (cell : Cell P) (v : Val P) : Prop :=
  (∃ a A F rest, s.acts a = some A ∧ A.scope = F :: rest ∧ A.vars cell.var = some n ∧ Written env s A F cell.var v) ∨
  ((∀ F ∈ cell.scope, Free env X F cell.var) ∧ s.Has v)

/-! ## Calls -/

/-- The call executes the function value `c` with error code argument `t`. -/
inductive Callee (A : Act P) (F : Frame P) (id : NodeId) (fn : Node) (args : List Node) (t : GoString) : Closure P → Prop where
  | trusted {q S k g} : (X F.pkg).conversion id = false → Trusted (env F.pkg) id q S →
      (∀ p, (env F.pkg).facts.ctor q = some p → ∀ e, args[p + (X F.pkg).shift id]? = some e → (e, .text t) ∈ A.temps) → exec q k g →
      Callee A F id fn args t (.top k g)
  | own {g} : (X F.pkg).conversion id = false → (¬ ∃ q S, Trusted (env F.pkg) id q S) → Names env F.pkg fn g →
      (∀ p, importErrorConstructorFact (env F.pkg) g = some p → ∀ e, args[p + (X F.pkg).shift id]? = some e → (e, .text t) ∈ A.temps) →
      Callee A F id fn args t (.top F.pkg g)
  | literal {c} : (X F.pkg).conversion id = false → (¬ ∃ q S, Trusted (env F.pkg) id q S) → LiteralValue env A F fn c →
      (∀ p, importErrorConstructorFact (env F.pkg) c.fn = some p → ∀ e, args[p + (X F.pkg).shift id]? = some e → (e, .text t) ∈ A.temps) →
      Callee A F id fn args t c
  | throughVar {c x j} : (X F.pkg).conversion id = false → (¬ ∃ q S, Trusted (env F.pkg) id q S) → FnVar (env F.pkg) fn x →
      VarUse (env F.pkg) fn j x → (fn, .fn c) ∈ A.temps → Callee A F id fn args t c

/-- The address is not in use. -/
def Unused (s : State P) (b : Nat) : Prop := s.acts b = none ∧ ∀ a A e, s.acts a = some A → A.caller ≠ some (b, e)

/-- Function value `c` gets executed (as number `b`) with error code argument `t`. -/
inductive Starts (s : State P) (c : Closure P) (t : GoString) (caller : Option (Nat × Node)) : State P → Prop where
  | plain {body b} : ((env c.pkg).func c.fn).body = some body → (∀ x, ¬ CodeParam (env c.pkg) c.fn x) → Unused s b →
      Starts s c t caller { s with acts := put s.acts b ⟨⟨c.pkg, c.fn, body, t⟩ :: c.outer, c.vars, [], caller⟩ }
  | param {body b x n} : ((env c.pkg).func c.fn).body = some body → CodeParam (env c.pkg) c.fn x → c.outer = [] → Unused s b →
      s.cells n = none →
      Starts s c t caller { s with
        cells := put s.cells n ⟨x, [⟨c.pkg, c.fn, body, t⟩], .text t⟩
        acts := put s.acts b ⟨[⟨c.pkg, c.fn, body, t⟩], fun y => if y = x then some n else c.vars y, [], caller⟩ }

/-- A value is added to those of an execution. -/
def State.temp (s : State P) (a : Nat) (A : Act P) (e : Node) (v : Val P) : State P :=
  { s with
    acts := put s.acts a { A with temps := (e, v) :: A.temps }
    fns := match v with | .fn c => c :: s.fns | _ => s.fns }

/-- The execution `b` (which is `B`) ends, and its result is given to the caller (if it still exists). -/
def State.finish (s : State P) (b : Nat) (B : Act P) (v : Val P) : State P :=
  let s' := { s with acts := fun i => if i = b then none else s.acts i }
  match B.caller with
  | none => s'
  | some (a, e) => match s'.acts a with
    | none => s'
    | some A => s'.temp a A e v

/-- The error was returned by a return statement. -/
def State.mark (s : State P) (p : P) (id : NodeId) : Val P → State P
  | .err r => match s.objs r with
    | some t => { s with objs := put s.objs r { t with via := (p, id) :: t.via } }
    | none => s
  | _ => s

/-- Whatever is not used any more may disappear: executions (e.g. by a panic), variables, values, function values. -/
structure Forgets (s s' : State P) : Prop where
  objs : s'.objs = s.objs
  cells : ∀ n cell, s'.cells n = some cell → s.cells n = some cell
  acts : ∀ a A', s'.acts a = some A' → ∃ A, s.acts a = some A ∧ A'.scope = A.scope ∧ A'.caller = A.caller ∧
    (∀ x ∈ A'.temps, x ∈ A.temps) ∧ ∀ x n, A'.vars x = some n → A.vars x = some n
  fns : ∀ c ∈ s'.fns, c ∈ s.fns
  /-- what is still used does not disappear -/
  actVars : ∀ a A x n, s'.acts a = some A → A.vars x = some n → s'.cells n ≠ none
  actFns : ∀ a A e c x n, s'.acts a = some A → (e, .fn c) ∈ A.temps → c.vars x = some n → s'.cells n ≠ none
  cellFns : ∀ m cell c x n, s'.cells m = some cell → cell.val = .fn c → c.vars x = some n → s'.cells n ≠ none
  fnVars : ∀ c x n, c ∈ s'.fns → c.vars x = some n → s'.cells n ≠ none

/-! ## Steps -/

/-- One step.  The label tells which execution returns which error (if the step does that). -/
inductive Step (s : State P) : Option (Frame P × Obj) → State P → Prop where
  /-- there is a new error value, from anywhere -/
  | object {r o} : s.objs r = none → Step s none { s with objs := put s.objs r ⟨o, none, []⟩ }
  /-- an expression is evaluated -/
  | eval {a A F rest e v} : s.acts a = some A → A.scope = F :: rest → Value env X exec s A F e v → Step s none (s.temp a A e v)
  /-- a variable is declared -/
  | declare {a A x n} : s.acts a = some A → s.cells n = none → Step s none { s with
      cells := put s.cells n ⟨x, A.scope, .nil⟩
      acts := put s.acts a { A with vars := fun y => if y = x then some n else A.vars y } }
  /-- a variable gets a value -/
  | assign {n cell v} : s.cells n = some cell → Assigns env X s n cell v → Step s none { s with cells := put s.cells n { cell with val := v } }
  /-- the error which a variable holds is stored in the variable itself (for variables of error types which are no pointers) -/
  | memory {n cell r t r'} : s.cells n = some cell → cell.val = .err r → s.objs r = some t → s.objs r' = none → Step s none { s with
      objs := put s.objs r' ⟨t.obj, some (cell.var, cell.scope), []⟩
      cells := put s.cells n { cell with val := .err r' } }
  /-- then assigning to the variable changes this error, which may be referred to by others.  (If it was returned, the annotations
  of the return statements have to be true of it.) -/
  | overwrite {n cell r t r' t'} : s.cells n = some cell → cell.val = .err r → s.objs r = some t → t.var = some (cell.var, cell.scope) →
      Assigns env X s n cell (.err r') → s.objs r' = some t' → t'.obj.et = t.obj.et →
      (∀ i ∈ t.via, Honours (env i.1) i.2 t'.obj) → Step s none { s with objs := put s.objs r { t with obj := t'.obj } }
  /-- `y.field = …`: any error of this type is changed -/
  | store {a A F rest id lhs rhs l sid y sel r t u} {k : Nat} : s.acts a = some A → A.scope = F :: rest →
      Occurs (.assign id lhs rhs) F.body → lhs[k]? = some l → l.unparen = .selector sid y sel →
      s.objs r = some t → (X F.pkg).codeField sid = some t.obj.et →
      (lhs.length = rhs.length → (X F.pkg).op id = false → ∃ e, rhs[k]? = some e ∧ (e, .text u) ∈ A.temps) →
      (∀ G, s.Uses G r → G ∈ A.scope ∨ (X G.pkg).foreign t.obj.et u) →
      Step s none { s with objs := put s.objs r { t with obj := { t.obj with field := u } } }
  /-- another function stores into an error -/
  | foreign {r t u} : s.objs r = some t → (∀ G, s.Uses G r → (X G.pkg).foreign t.obj.et u) →
      Step s none { s with objs := put s.objs r { t with obj := { t.obj with field := u } } }
  /-- `*p = …` changes an error -/
  | deref {a A F rest id lhs rhs l r t u} : s.acts a = some A → A.scope = F :: rest → Occurs (.assign id lhs rhs) F.body → l ∈ lhs →
      (X F.pkg).deref l.unparen.id = true → s.objs r = some t → (∀ G, s.Uses G r → G ∈ A.scope) →
      Step s none { s with objs := put s.objs r { t with obj := { t.obj with field := u } } }
  /-- `*p = …` changes a variable that holds an error -/
  | derefVar {a A F rest id lhs rhs l n cell r} : s.acts a = some A → A.scope = F :: rest → Occurs (.assign id lhs rhs) F.body → l ∈ lhs →
      (X F.pkg).deref l.unparen.id = true → s.cells n = some cell → (∀ G ∈ cell.scope, G ∈ A.scope) → s.objs r ≠ none →
      Step s none { s with cells := put s.cells n { cell with val := .err r } }
  /-- a function is called -/
  | call {a A F rest e id fn args t c s'} : s.acts a = some A → A.scope = F :: rest → e.unparen = .call id fn args → Varying env F.pkg e →
      Callee env X exec A F id fn args t c → Starts env s c t (some (a, e)) s' → Step s none s'
  /-- a function not written in Go is called -/
  | external {a A F rest e id fn args t c v} : s.acts a = some A → A.scope = F :: rest → e.unparen = .call id fn args →
      Varying env F.pkg e → Callee env X exec A F id fn args t c → ((env c.pkg).func c.fn).body = none → s.Has v → Step s none (s.temp a A e v)
  /-- a function is executed for another reason: by the run time system, as a goroutine, as a deferred function, by a function it was
  passed to -/
  | spawn {c t s'} : s.Has (.fn c) → Starts env s c t none s' → Step s none s'
  /-- return statements -/
  | returned {b B F rest id results e v} {o : Option Obj} : s.acts b = some B → B.scope = F :: rest →
      WithinList ofFunction (.ret id results) F.body → ResultOf (env F.pkg) F.fn results e → (e, v) ∈ B.temps →
      (o = match v with | .err r => (s.objs r).map Thing.obj | _ => none) → (∀ x, o = some x → Honours (env F.pkg) id x) →
      Step s (o.map fun x => (F, x)) ((s.mark F.pkg id v).finish b B v)
  /-- deferred functions have changed the result -/
  | deferred {b B F rest v} {o : Option Obj} : s.acts b = some B → B.scope = F :: rest → (X F.pkg).deferred F.fn = true → s.Has v →
      (o = match v with | .err r => (s.objs r).map Thing.obj | _ => none) → Step s (o.map fun x => (F, x)) (s.finish b B v)
  /-- something is not used any more -/
  | forget {s'} : Forgets s s' → Step s none s'

/-- The states which may be reached. -/
inductive Reachable : State P → Prop where
  | start : Reachable .start
  | step {s l s'} : Reachable s → Step env X exec s l s' → Reachable s'

/-- Executing function `fn` of package `pkg`, with error code argument `arg`, returns the error `o` in some execution of the program. -/
def Returned (pkg : P) (fn : FnId) (arg : GoString) (o : Obj) : Prop :=
  ∃ s F s', Reachable env X exec s ∧ Step env X exec s (some (F, o)) s' ∧ F.pkg = pkg ∧ F.fn = fn ∧ F.arg = arg

end Serum.Machine
