import Verif.TaintLemmas
import Verif.TaintFuel
import Verif.TaintScope

/-!
# C23, C40 — following variables, and what counts as local
-/

namespace Serum.Props.Tracking
open Serum Serum.Flow Serum.Taint

/-- **C23.** Following a variable `x` (named by `i`) terminates without panic and finds exactly:

* the variables that are transitively assigned to it (`Tracked`),
* the non-variable expressions assigned to one of them by a declaration or an assignment anywhere in the
  body, closures included (without their parentheses),
* the destructuring assignments to one of them,
* the identifiers among them that are not local: declared outside the function's results and body, or
  parameters of nested function literals.

`seen` are the variables that earlier calls already followed (none for the first call of a function).

Partial: `CleanRoot` excludes a start variable whose *initial value* leads to a parameter of a nested
function literal; `nested_parameter_accepted` shows that the code misses such a parameter.
(`BodyOk` and `LitsBeforeUses` hold for every parsed function body: parameters have objects, assignments
have right-hand sides, and uses of a literal's parameter come after the literal's start.) -/
theorem tracking_exact_partial (env : Env) (function : FuncDef) (body : List Node) (param : Option ObjId)
    (seen : List ObjId) (i : Ident) (x : ObjId) (ho : i.obj = some x)
    (parsed : BodyOk body) (scope : LitsBeforeUses env body) (clean : CleanRoot env body i) :
    ∃ r, run env function body param (enough env) seen i = .ok r ∧
      (∀ o, o ∈ r.visited ↔ o ∈ seen ∨ Tracked env function body param seen i o) ∧
      (∀ e, e ∈ r.expressions ↔ ∃ x e', Tracked env function body param seen i x ∧ Source env body x e' ∧
        (¬ ∃ j y, VarUse env e' j y) ∧ e = e'.unparen) ∧
      (∀ d, d ∈ r.destructs ↔ ∃ x, Tracked env function body param seen i x ∧ Destructured env body x d) ∧
      (∀ j, j ∈ r.outOfScope ↔ ¬ Local env function body param j ∧
        (j = i ∨ ∃ x e y, Tracked env function body param seen i x ∧ Source env body x e ∧ VarUse env e j y)) := by
  obtain ⟨r, hr, -⟩ := run_ok (env := env) (function := function) (param := param) parsed seen i
  exact ⟨r, hr, run_spec scope ho clean hr⟩

/-- **C40.** A returned identifier is accepted as local iff it is `nil`, or it is declared inside the
function's results or body and is no parameter of a nested function literal.  (Same hypotheses as above.) -/
theorem own_scope_exact_partial (env : Env) (function : FuncDef) (body : List Node) (i : Ident) (x : ObjId)
    (ho : i.obj = some x) (parsed : BodyOk body) (scope : LitsBeforeUses env body) (clean : CleanRoot env body i) :
    ∃ r, run env function body none (enough env) [] i = .ok r ∧
      (i ∉ r.outOfScope ↔
        (i.name = b!"nil" ∨ (startPos function < (env.object x).pos ∧ (env.object x).pos < function.bodyEnd)) ∧
        ¬ LitParam body x) := by
  obtain ⟨r, hr, -, -, -, h⟩ := tracking_exact_partial env function body none [] i x ho parsed scope clean
  refine ⟨r, hr, ?_⟩
  rw [h i]
  simp only [true_or, and_true, Classical.not_not, Local, ne_eq, not_true_eq_false, false_and, false_or, Inside, ho,
    Option.some.injEq, exists_eq_left', forall_eq']

/-- **C40.** A returned variable is accepted as local iff it is `nil` or declared inside the function's results
or body, whatever else the body contains and whichever variables (`seen`) were followed before.

(`parsed` holds of every parsed body.  `visible`: a parameter of a nested literal cannot be named in a return
statement of the function itself.) -/
theorem own_scope_exact (env : Env) (function : FuncDef) (body : List Node) (seen : List ObjId) (i : Ident)
    (parsed : BodyOk body) (visible : ∀ x, i.obj = some x → ¬ LitParam body x) :
    ∃ r, run env function body none (enough env) seen i = .ok r ∧
      (i ∉ r.outOfScope ↔
        i.name = b!"nil" ∨
          ∃ x, i.obj = some x ∧ startPos function < (env.object x).pos ∧ (env.object x).pos < function.bodyEnd) := by
  obtain ⟨r, hr, -⟩ := run_ok (env := env) (function := function) (param := none) parsed seen i
  refine ⟨r, hr, fun hi => ?_, fun hi hm => ?_⟩
  · refine Classical.byContradiction fun hc => hi ?_
    have hout : isIdentOriginOutsideFunctionScope env function i = true := by
      cases h : isIdentOriginOutsideFunctionScope env function i with
      | true => rfl
      | false => exact absurd ((outside_iff i).1 h) hc
    have : run env function body none (enough env) seen i = .ok ⟨seen, [], [], [], [i]⟩ := by
      show findSpread _ _ _ _ (_ + 1) _ _ = _
      simp [findSpread, hout]
    rw [this] at hr
    cases hr
    exact List.mem_singleton_self _
  · rcases ((run_justified (F := fun _ => True) (fun _ _ _ _ _ _ _ _ => trivial) ⟨.ident i, trivial, .inl rfl⟩ hr).1 i hm).2 with h | ⟨x, hx, h⟩
    · exact h hi
    · exact visible x hx h

/-- **C40.** Without any hypothesis: parameters and receivers (declared before the results or the body),
variables of enclosing functions (before the literal), and package-level variables (before the function, or
after its end, or in no scope of the file) are reported, and nothing is followed or collected from them. -/
theorem outer_reported (env : Env) (function : FuncDef) (body : List Node) (seen : List ObjId) (i : Ident) (fuel : Nat)
    (hn : i.name ≠ b!"nil")
    (outer : ∀ x, i.obj = some x → (env.object x).pos ≤ startPos function ∨ function.bodyEnd ≤ (env.object x).pos) :
    run env function body none (fuel + 1) seen i = .ok ⟨seen, [], [], [], [i]⟩ := by
  have : isIdentOriginOutsideFunctionScope env function i = true := by
    cases h : isIdentOriginOutsideFunctionScope env function i with
    | true => rfl
    | false =>
      rcases (outside_iff i).1 h with h | ⟨o, ho, h1, h2⟩
      · exact absurd h hn
      · rcases outer o ho with h | h <;> omega
  simp [run, findSpread, this]

/-- **C40.** An identifier without declaration in the file other than `nil` (a selected field, a name from a
dot-import or another file) is reported. -/
theorem unresolved_reported (env : Env) (function : FuncDef) (body : List Node) (seen : List ObjId) (i : Ident) (fuel : Nat)
    (hn : i.name ≠ b!"nil") (ho : i.obj = none) :
    run env function body none (fuel + 1) seen i = .ok ⟨seen, [], [], [], [i]⟩ :=
  outer_reported env function body seen i fuel hn (by simp [ho])

/-- **C40.** `nil` is always accepted. -/
theorem nil_accepted (env : Env) (function : FuncDef) (body : List Node) (seen : List ObjId) (i : Ident) (fuel : Nat)
    (hn : i.name = b!"nil") (ho : i.obj = none) :
    run env function body none (fuel + 1) seen i = .ok ⟨seen, [], [], [], []⟩ := by
  simp [run, findSpread, isIdentOriginOutsideFunctionScope, hn, ho]

/-! ## Bodies without function literals -/

/-- Bodies without function literals satisfy the scoping hypotheses trivially. -/
theorem scope_of_noLits (env : Env) (body : List Node) (h : ∀ p, ¬ LitParam body p) :
    LitsBeforeUses env body ∧ ∀ i, CleanRoot env body i :=
  ⟨fun _ _ _ _ _ _ _ _ _ _ p _ _ hl => absurd hl (h p), fun _ _ p _ _ => h p⟩

/-! ## Witnesses -/

/-- Type information about nothing, with the given objects. -/
def plainEnv (objects : List ObjInfo) : Env where
  funcs := []
  objects := objects
  typeOf := fun _ => .other 0
  value := fun _ => none
  callee := fun _ => none
  uses := fun _ => none
  selection := fun _ => none
  pkgName := fun _ => none
  funcObj := fun f => f
  implError := fun _ => true
  implCode := fun _ => false
  sigResults := fun _ => 0
  methodSet := fun _ _ => none
  functions := fun _ => none
  methods := fun _ => []
  comments := fun _ => []
  isPrint := fun r => decide (32 ≤ r) && decide (r < 127)
  facts := ⟨fun _ => none, fun _ => none, fun _ => none, fun _ => none⟩

/-- `func f() error { a := New(); b := a; func(p error) { b = p }(nil); return b }`, with the objects
`a` = 0, `b` = 1, `p` = 2. -/
def exBody : List Node :=
  [.assign 1 [.ident ⟨2, b!"a", some 0⟩] [.call 3 (.ident ⟨4, b!"New", none⟩) []],
   .assign 5 [.ident ⟨6, b!"b", some 1⟩] [.paren 7 (.ident ⟨8, b!"a", some 0⟩)],
   .call 9 (.funcLit 10 1 ⟨[⟨[⟨11, b!"p", some 2⟩], 12⟩], none, 0⟩
     [.assign 13 [.ident ⟨14, b!"b", some 1⟩] [.ident ⟨15, b!"p", some 2⟩]]) [.ident ⟨16, b!"nil", none⟩],
   .ret 17 [.ident ⟨18, b!"b", some 1⟩]]

/-- The objects and the function of `exBody`. -/
def exEnv : Env := plainEnv [⟨.var, 30, .other⟩, ⟨.var, 40, .other⟩, ⟨.var, 50, .other⟩]
def exFunction : FuncDef := ⟨0, none, ⟨[], some [⟨[], 19⟩], 10⟩, some exBody, 20, 100⟩

/-- The non-variable source `New()` is found through `a` and the nested parameter `p` is reported. -/
example : ∃ r, run exEnv exFunction exBody none (enough exEnv) [] ⟨18, b!"b", some 1⟩ = .ok r ∧
    r.visited = [1, 0] ∧ r.expressions = [.call 3 (.ident ⟨4, b!"New", none⟩) []] ∧ r.destructs = [] ∧
    r.outOfScope = [⟨15, b!"p", some 2⟩] := by
  refine ⟨_, rfl, ?_, ?_, ?_, ?_⟩ <;> rfl

theorem exBody_nodes : Node.inspectList (fun _ => true) exBody =
    [.assign 1 [.ident ⟨2, b!"a", some 0⟩] [.call 3 (.ident ⟨4, b!"New", none⟩) []],
     .ident ⟨2, b!"a", some 0⟩, .call 3 (.ident ⟨4, b!"New", none⟩) [], .ident ⟨4, b!"New", none⟩,
     .assign 5 [.ident ⟨6, b!"b", some 1⟩] [.paren 7 (.ident ⟨8, b!"a", some 0⟩)],
     .ident ⟨6, b!"b", some 1⟩, .paren 7 (.ident ⟨8, b!"a", some 0⟩), .ident ⟨8, b!"a", some 0⟩,
     .call 9 (.funcLit 10 1 ⟨[⟨[⟨11, b!"p", some 2⟩], 12⟩], none, 0⟩
       [.assign 13 [.ident ⟨14, b!"b", some 1⟩] [.ident ⟨15, b!"p", some 2⟩]]) [.ident ⟨16, b!"nil", none⟩],
     .funcLit 10 1 ⟨[⟨[⟨11, b!"p", some 2⟩], 12⟩], none, 0⟩
       [.assign 13 [.ident ⟨14, b!"b", some 1⟩] [.ident ⟨15, b!"p", some 2⟩]],
     .assign 13 [.ident ⟨14, b!"b", some 1⟩] [.ident ⟨15, b!"p", some 2⟩],
     .ident ⟨14, b!"b", some 1⟩, .ident ⟨15, b!"p", some 2⟩, .ident ⟨16, b!"nil", none⟩,
     .ret 17 [.ident ⟨18, b!"b", some 1⟩], .ident ⟨18, b!"b", some 1⟩] := rfl

/-- No variable of this example has an initial value in a `var` declaration. -/
theorem exEnv_chain {x p : ObjId} (h : InitChain exEnv x p) : p = x := by
  cases h with
  | refl => rfl
  | step hi _ _ =>
    obtain ⟨_, _, _, _, hd, -⟩ := hi
    have : (exEnv.object x).decl = .other := by
      match x with
      | 0 => rfl
      | 1 => rfl
      | 2 => rfl
      | n + 3 => simp [Env.object, exEnv, plainEnv]
    rw [this] at hd; exact absurd hd (by simp)

theorem exBody_lit {p : ObjId} (h : LitParam exBody p) : p = 2 := by
  obtain ⟨id, fn, type, b, ho, n, hn, hp⟩ := h
  rw [Occurs, ← mem_inspectList, exBody_nodes] at ho
  simp only [List.mem_cons, List.not_mem_nil, or_false, reduceCtorEq, false_or, Node.funcLit.injEq] at ho
  obtain ⟨-, -, rfl, -⟩ := ho
  simp at hn; subst hn; simpa using hp.symm

/-- The hypotheses of `tracking_exact_partial` hold for this function and its returned variable. -/
example : BodyOk exBody ∧ LitsBeforeUses exEnv exBody ∧ CleanRoot exEnv exBody ⟨18, b!"b", some 1⟩ := by
  refine ⟨⟨?_, ?_⟩, ?_, ?_⟩
  · intro id fn type b ho n hn
    rw [Occurs, ← mem_inspectList, exBody_nodes] at ho
    simp only [List.mem_cons, List.not_mem_nil, or_false, reduceCtorEq, false_or, Node.funcLit.injEq] at ho
    obtain ⟨-, -, rfl, -⟩ := ho
    simp at hn; subst hn; simp
  · intro id lhs rhs ho _
    rw [Occurs, ← mem_inspectList, exBody_nodes] at ho
    simp only [List.mem_cons, List.not_mem_nil, or_false, reduceCtorEq, false_or, Node.assign.injEq] at ho
    rcases ho with ⟨-, -, rfl⟩ | ⟨-, -, rfl⟩ | ⟨-, -, rfl⟩ <;> simp
  · intro pre id lhs rhs post heq r hr i y p hv hc hl
    have hp := exBody_lit hl
    have hy := exEnv_chain hc
    subst hp; subst hy
    rw [exBody_nodes] at heq
    obtain ⟨h1, h2, -⟩ := hv
    -- the nodes before the function literal are no uses of `p`
    have hk := congrArg (fun l => l[pre.length]?) heq
    have hpre := congrArg (List.take pre.length) heq
    simp only [List.getElem?_append_right (Nat.le_refl _), Nat.sub_self, List.getElem?_cons_zero] at hk
    rw [List.take_left] at hpre
    generalize pre.length = n at hk hpre
    match n with
    | 0 | 4 =>
      simp only [List.getElem?_cons_zero, List.getElem?_cons_succ, Option.some.injEq, Node.assign.injEq] at hk
      obtain ⟨-, -, rfl⟩ := hk
      simp only [List.mem_singleton] at hr
      subst hr
      simp only [Node.unparen, reduceCtorEq, Node.ident.injEq] at h1
      try (subst h1; simp at h2)
    | 1 | 2 | 3 | 5 | 6 | 7 | 8 | 9 => simp at hk
    | n + 10 =>
      rw [← hpre]
      refine ⟨10, 1, ⟨[⟨[⟨11, b!"p", some 2⟩], 12⟩], none, 0⟩,
        [.assign 13 [.ident ⟨14, b!"b", some 1⟩] [.ident ⟨15, b!"p", some 2⟩]], ?_, ⟨11, b!"p", some 2⟩, by simp, rfl⟩
      simp only [List.take_succ_cons, List.mem_cons, true_or, or_true]
  · intro x p hx hc hl
    have h1 := exBody_lit hl
    have h2 := exEnv_chain hc
    simp only [Option.some.injEq] at hx
    rw [h1, ← hx] at h2
    exact absurd h2 (by decide)

/-- `func f() error { var err error; func(p error) { var y error = p; err = &y }(…); return err }`:
the body of this example with objects `err` = 0, `p` = 1, `y` = 2. -/
def nestedBody : List Node :=
  [.other 1 [.valueSpec 2 [⟨3, b!"err", some 0⟩] (some 4) []],
   .call 5 (.funcLit 6 1 ⟨[⟨[⟨7, b!"p", some 1⟩], 8⟩], none, 0⟩
     [.other 9 [.valueSpec 10 [⟨11, b!"y", some 2⟩] (some 12) [.ident ⟨13, b!"p", some 1⟩]],
      .assign 14 [.ident ⟨15, b!"err", some 0⟩] [.unary 16 true (.ident ⟨17, b!"y", some 2⟩)]]) [.ident ⟨18, b!"nil", none⟩],
   .ret 19 [.ident ⟨20, b!"err", some 0⟩]]

/-- The objects of `nestedBody`. -/
def nestedEnv : Env := plainEnv
  [⟨.var, 30, .valueSpec [⟨3, b!"err", some 0⟩] []⟩, ⟨.var, 40, .other⟩,
   ⟨.var, 50, .valueSpec [⟨11, b!"y", some 2⟩] [.ident ⟨13, b!"p", some 1⟩]⟩]

/-- **C23 does not hold of the code** without `CleanRoot`: when the analyzer continues with the variable `y`
of `&y` (a new tracking, whose blocked parameters are empty), the parameter `p` of the nested function
literal, which is not local, is neither reported nor is anything found for it. -/
theorem nested_parameter_accepted :
    (∃ r, run nestedEnv ⟨0, none, ⟨[], some [⟨[], 21⟩], 10⟩, some nestedBody, 20, 100⟩ nestedBody none (enough nestedEnv) [0]
      ⟨17, b!"y", some 2⟩ = .ok r ∧ r.outOfScope = [] ∧ r.expressions = []) ∧
    Source nestedEnv nestedBody 2 (.ident ⟨13, b!"p", some 1⟩) ∧ LitParam nestedBody 1 := by
  refine ⟨⟨_, rfl, rfl, rfl⟩, .inl ⟨[], ⟨11, b!"y", some 2⟩, [], _, rfl, by simp, rfl, rfl, rfl⟩, ?_⟩
  refine ⟨6, 1, ⟨[⟨[⟨7, b!"p", some 1⟩], 8⟩], none, 0⟩,
    [.other 9 [.valueSpec 10 [⟨11, b!"y", some 2⟩] (some 12) [.ident ⟨13, b!"p", some 1⟩]],
     .assign 14 [.ident ⟨15, b!"err", some 0⟩] [.unary 16 true (.ident ⟨17, b!"y", some 2⟩)]], ?_, ⟨7, b!"p", some 1⟩, ?_, rfl⟩
  · rw [Occurs, ← mem_inspectList]
    simp only [nestedBody, Node.inspectList, Node.inspect, if_true, List.cons_append, List.mem_cons, true_or, or_true,
      List.mem_append]
  · simp

end Serum.Props.Tracking
