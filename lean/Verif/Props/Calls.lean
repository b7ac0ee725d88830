import Verif.AnalyseProgram
import Verif.Props.Bodies
import Verif.Simple

/-!
# C25: calls are trusted across packages and checked within a package
-/

namespace Serum.Props.Calls
open Flow Taint Analyse

/-- `fn(args)` is a call whose (last) result may become the error returned by the function: it flows into a
return statement, directly or through variables, also as `…, err = fn(args)`. -/
inductive ErrCall (env : Env) (f : FnId) (body : List Node) (id : NodeId) (fn : Node) (args : List Node) : Prop where
  | expr {e} : ErrExpr env f body e → e.unparen = .call id fn args → ErrCall env f body id fn args
  | last {x d n} : ErrVar env f body x → Destructured env body x d → d.source.unparen = .call id fn args →
      env.typeOf fn.id = .signature n → d.position + 1 = env.sigResults n → ErrCall env f body id fn args

/-! ## Specification: what is called -/

/-- The callee declares exactly the codes `S` (a fact), and no error code parameter. -/
def Declares (env : Env) (id : NodeId) (S : CodeSet) : Prop :=
  ∃ o, env.callee id = some o ∧ env.facts.codes o = some S ∧ env.facts.ctor o = none

/-- The callee is known and declares nothing. -/
def Undeclared (env : Env) (id : NodeId) : Prop :=
  ∃ o, env.callee id = some o ∧ env.facts.codes o = none ∧ env.facts.ctor o = none

/-- `fn` is `pkg.Name`, for the package (with the name) `pkg` and the name `name`. -/
def OtherPackage (env : Env) (fn : Node) (name pkg : GoString) : Prop :=
  ∃ id x sel t, fn.unparen = .selector id x sel ∧ x.unparen = .ident t ∧ env.pkgName t.id = some pkg ∧ sel.name = name

/-- `fn` is a name of a dot-imported package: not declared in the file, nor a function of the package. -/
def DotImported (env : Env) (fn : Node) (name : GoString) : Prop :=
  ∃ i, fn.unparen = .ident i ∧ i.obj = none ∧ env.functions name = none ∧ i.name = name

/-- `fn` is `x.Method` for a method that has no definition in the package (e.g. of an interface). -/
def OutsideMethod (env : Env) (fn : Node) : Prop :=
  ∃ id x sel recv o, fn.unparen = .selector id x sel ∧ (∀ t, x.unparen = .ident t → env.pkgName t.id = none) ∧
    env.selection id = some (recv, o) ∧ env.searchMethod recv sel.name = none

/-- `fn` denotes the function, method or literal `g` of the package. -/
def Defined (env : Env) (fn : Node) (g : FnId) : Prop :=
  (∃ i o, fn.unparen = .ident i ∧ i.obj = some o ∧ (env.object o).decl = .funcDecl g) ∨
  (∃ i, fn.unparen = .ident i ∧ i.obj = none ∧ env.functions i.name = some g) ∨
  (∃ id x sel recv o, fn.unparen = .selector id x sel ∧ (∀ t, x.unparen = .ident t → env.pkgName t.id = none) ∧
    env.selection id = some (recv, o) ∧ env.searchMethod recv sel.name = some g) ∨
  (∃ id type b, fn.unparen = .funcLit id g type b)

/-! ## One call -/

variable {env : Env} {f : FnId} {body : List Node} {fuel : Nat}

theorem callExpression_succ (id : NodeId) (fn : Node) (args : List Node) :
    callExpression env f body (fuel + 1) id fn args =
      functionCall env f (allAssignedLambdas env f body (fuel + 1) (fun n o => call env f body (fuel + 1) fuel n o none))
        fn (env.callee id) (some (id, args)) := rfl

/-- **C25.** A call of a function that declares codes contributes exactly the declared codes; nothing is
reported, and the function called is not looked at. -/
theorem declared_call {id : NodeId} {fn : Node} {args : List Node} {S : CodeSet} (h : Declares env id S) (hf : 0 < fuel) :
    ∃ q, callExpression env f body fuel id fn args = .ok q ∧ (∀ ρ c, q.Yields ρ c ↔ c ∈ S) ∧ q.reports = [] ∧
      q.targets = [] ∧ q.panics = false := by
  obtain ⟨o, h1, h2, h3⟩ := h
  obtain ⟨fuel, rfl⟩ := Nat.exists_eq_succ_of_ne_zero (Nat.pos_iff_ne_zero.1 hf)
  refine ⟨.union (foundCode (none, [])) (.codes S), ?_, fun ρ c => ?_, rfl, rfl, rfl⟩
  · rw [callExpression_succ]
    simp [functionCall, lift, extractErrorCodeFromConstructorCall, h1, h2, h3]
  · exact ⟨fun h => h.resolve_left (by simp [foundCode, reports, Plan.unions, Plan.Yields]), fun h => .inr h⟩

/-- **C25.** A call of a function of another package that declares nothing contributes nothing and is
reported, once. -/
theorem undeclared_foreign_call {id : NodeId} {fn : Node} {args : List Node} (h : Undeclared env id) {name pkg : GoString} (ho : OtherPackage env fn name pkg)
    (hf : 0 < fuel) :
    ∃ q, callExpression env f body fuel id fn args = .ok q ∧ (∀ ρ c, ¬ q.Yields ρ c) ∧
      q.reports = [⟨fn.unparen.id, .foreignUndeclared name pkg⟩] ∧ q.targets = [] ∧ q.panics = false := by
  obtain ⟨o, h1, h2, h3⟩ := h
  obtain ⟨sid, x, sel, t, hfn, hx, hp, rfl⟩ := ho
  obtain ⟨fuel, rfl⟩ := Nat.exists_eq_succ_of_ne_zero (Nat.pos_iff_ne_zero.1 hf)
  refine ⟨.union (reports []) (.report ⟨sid, .foreignUndeclared sel.name pkg⟩), ?_, fun ρ c h => ?_, by rw [hfn]; rfl, rfl, rfl⟩
  · rw [callExpression_succ]
    simp [functionCall, lift, extractErrorCodeFromConstructorCall, h1, h2, h3, calledFunction, hfn, hx, hp, bind, Except.bind, pure, Except.pure]
  · simp [reports, Plan.unions, Plan.Yields] at h

/-- **C25.** The same for names from dot-imported packages … -/
theorem undeclared_dot_import {id : NodeId} {fn : Node} {args : List Node} (h : Undeclared env id) {name : GoString} (ho : DotImported env fn name)
    (hf : 0 < fuel) :
    ∃ q, callExpression env f body fuel id fn args = .ok q ∧ (∀ ρ c, ¬ q.Yields ρ c) ∧
      q.reports = [⟨fn.unparen.id, .dotImportUndeclared name⟩] ∧ q.targets = [] ∧ q.panics = false := by
  obtain ⟨o, h1, h2, h3⟩ := h
  obtain ⟨i, hfn, hi, hn, rfl⟩ := ho
  obtain ⟨fuel, rfl⟩ := Nat.exists_eq_succ_of_ne_zero (Nat.pos_iff_ne_zero.1 hf)
  refine ⟨.union (reports []) (.report ⟨i.id, .dotImportUndeclared i.name⟩), ?_, fun ρ c h => ?_, by rw [hfn]; rfl, rfl, rfl⟩
  · rw [callExpression_succ]
    simp [functionCall, lift, extractErrorCodeFromConstructorCall, h1, h2, h3, calledFunction, hfn, hi, hn, bind, Except.bind, pure, Except.pure]
  · simp [reports, Plan.unions, Plan.Yields] at h

theorem calledFunction_method {lambdas : Ident → Except Stop BodyPlan} {fn x : Node} {sid : NodeId} {sel : Ident} {recv : GoType}
    {o : Object} {ce : Option (NodeId × List Node)} (hfn : fn.unparen = .selector sid x sel)
    (hp : ∀ t, x.unparen = .ident t → env.pkgName t.id = none) (hsel : env.selection sid = some (recv, o)) :
    calledFunction env f lambdas fn ce = .ok (.inr (env.searchMethod recv sel.name)) := by
  cases hx : x.unparen with
  | ident t => simp [calledFunction, hfn, hx, hsel, hp t hx]
  | _ => simp [calledFunction, hfn, hx, hsel]

/-- **C25.** … and for methods without declaration whose definition is not in the package: methods of
interfaces and of types of other packages. -/
theorem undeclared_method_call {id : NodeId} {fn : Node} {args : List Node} (h : Undeclared env id) (ho : OutsideMethod env fn)
    (hf : 0 < fuel) :
    ∃ q, callExpression env f body fuel id fn args = .ok q ∧ (∀ ρ c, ¬ q.Yields ρ c) ∧
      q.reports = [⟨fn.id, .calleeUndeclared⟩] ∧ q.targets = [] ∧ q.panics = false := by
  obtain ⟨o, h1, h2, h3⟩ := h
  obtain ⟨sid, x, sel, recv, so, hfn, hp, hsel, hm⟩ := ho
  obtain ⟨fuel, rfl⟩ := Nat.exists_eq_succ_of_ne_zero (Nat.pos_iff_ne_zero.1 hf)
  refine ⟨.union (foundCode (none, [])) (.report ⟨fn.id, .calleeUndeclared⟩), ?_, fun ρ c h => ?_, rfl, rfl, rfl⟩
  · rw [callExpression_succ]
    simp [functionCall, lift, extractErrorCodeFromConstructorCall, h1, h2, h3, calledFunction_method hfn hp hsel, hm, bind,
      Except.bind, pure, Except.pure]
  · simp [foundCode, reports, Plan.unions, Plan.Yields] at h

/-- **C25.** A call of a function of the package (that is, one without a fact while the package is analysed)
contributes the codes of that function, and nothing is reported for it. -/
theorem local_call {id : NodeId} {fn : Node} {args : List Node} {g : FnId} (h : Undeclared env id ∨ env.callee id = none ∧ extractErrorCodesFromTypeConversion env fn = [])
    (ho : Defined env fn g) (hf : 0 < fuel) :
    ∃ q, callExpression env f body fuel id fn args = .ok q ∧ (∀ ρ c, q.Yields ρ c ↔ ρ g c) ∧
      q.reports = [] ∧ q.targets = [g] ∧ q.panics = false := by
  obtain ⟨fuel, rfl⟩ := Nat.exists_eq_succ_of_ne_zero (Nat.pos_iff_ne_zero.1 hf)
  refine ⟨.union (foundCode (none, [])) (.call g), ?_, fun ρ c => ?_, rfl, rfl, rfl⟩
  · rw [callExpression_succ]
    have h1 : extractErrorCodeFromConstructorCall env f fn.id (env.callee id) (some args) = .ok (none, []) := by
      rcases h with ⟨o, h1, h2, h3⟩ | ⟨h1, -⟩
      · simp [extractErrorCodeFromConstructorCall, h1, h3]
      · simp [extractErrorCodeFromConstructorCall, h1]
    have h2 : (env.callee id).bind env.facts.codes = none := by
      rcases h with ⟨o, h1, h2, h3⟩ | ⟨h1, -⟩
      · simp [h1, h2]
      · simp [h1]
    have h3 : (if (some (id, args)).isSome = true ∧ env.callee id = none then extractErrorCodesFromTypeConversion env fn else []) = [] := by
      rcases h with ⟨o, h1, h2, h3⟩ | ⟨h1, h2⟩
      · simp [h1]
      · simp [h1, h2]
    have h4 : ∀ lambdas, calledFunction env f lambdas fn (some (id, args)) = .ok (.inr (some g)) := by
      intro lambdas
      rcases ho with ⟨i, o, hfn, hi, hd⟩ | ⟨i, hfn, hi, hd⟩ | ⟨sid, x, sel, recv, so, hfn, hp, hsel, hm⟩ | ⟨lid, type, b, hfn⟩
      · simp [calledFunction, hfn, hi, hd]
      · simp [calledFunction, hfn, hi, hd]
      · rw [calledFunction_method hfn hp hsel, hm]
      · simp [calledFunction, hfn]
    simp only [functionCall, Option.map_some, lift, h1, h2, h3, h4, bind, Except.bind, pure, Except.pure, ne_eq, not_true_eq_false, if_false]
  · exact ⟨fun h => h.resolve_left (by simp [foundCode, reports, Plan.unions, Plan.Yields]), fun h => .inr h⟩

/-! ## In a whole run -/

theorem ErrCall.leaves (hr : Regular env f body) (hf : bound env ≤ fuel) {id : NodeId} {fn : Node} {args : List Node}
    (h : ErrCall env f body id fn args) {q : BodyPlan} (hq : callExpression env f body fuel id fn args = .ok q) {l : BodyPlan}
    (hl : l ∈ q.leaves) (hn : l ≠ .codes []) : l ∈ (plan env fuel f).leaves := by
  cases h with
  | expr he hu => exact hr.errExpr hf he (by simp only [terminal, hu]; exact hq) hl hn
  | last hx hd hu ht hp =>
    refine hr.destruct hf hx hd (q := q) ?_ hl hn
    simp only [terminalD, hu, ht, hp, ne_eq, not_true_eq_false, if_false]; exact hq

/-- What comes out of an error call comes out of the function, and is reported for it. -/
theorem ErrCall.contributes (hr : Regular env f body) (hf : bound env ≤ fuel) {id : NodeId} {fn : Node} {args : List Node}
    (h : ErrCall env f body id fn args) {q : BodyPlan} (hq : callExpression env f body fuel id fn args = .ok q) :
    (NoSub env body → ∀ ρ c, q.Yields ρ c → (plan env fuel f).Yields ρ c) ∧
    (∀ d ∈ q.reports, d ∈ (plan env fuel f).reports) ∧ (∀ g ∈ q.targets, g ∈ (plan env fuel f).targets) := by
  refine ⟨fun hs ρ c hc => ?_, fun d hd => ?_, fun g hg => ?_⟩
  · obtain ⟨l, hl, hc⟩ := Plan.yields_leaf hc
    have hn : l ≠ .codes [] := by rintro rfl; simp [Plan.Yields] at hc
    exact Plan.leaf_yields hc (hr.noMinus hf hs) (h.leaves hr hf hq hl hn)
  · exact (Plan.mem_reports _).2 (h.leaves hr hf hq ((Plan.mem_reports _).1 hd) (by simp))
  · rw [Plan.mem_targets] at hg ⊢
    exact hg.imp (fun h' => h.leaves hr hf hq h' (by simp)) (fun h' => h.leaves hr hf hq h' (by simp))

/-- **C25**, for a run over all functions with declarations.  For every function `f` that is looked at and has
no annotations removing codes, and every call in it whose error may be returned:
- if the callee declares codes, they are among the codes found for `f`;
- if it declares nothing and is defined elsewhere, the call is reported;
- if it is defined in the package, all codes found for it are among the codes found for `f` (provided no literal calling back is
  reachable from `f`, see `CallGraph.order_matters`). -/
theorem calls_in_run (hr : Regular env f body) (hf : bound env ≤ fuel) (hs : NoSub env body)
    {depth : Nat} {order : List FnId} {results : List (FnId × CodeSet)}
    {st : Search FnId Diag} (h : Search.findAll (plan env fuel) depth order Search.start = .ok (results, st))
    {T : CodeSet} (hT : st.found f = some T) {id : NodeId} {fn : Node} {args : List Node} (hc : ErrCall env f body id fn args) :
    (∀ S, Declares env id S → ∀ c ∈ S, c ∈ T) ∧
    (Undeclared env id →
      (∀ name pkg, OtherPackage env fn name pkg → (f, ⟨fn.unparen.id, .foreignUndeclared name pkg⟩) ∈ st.diags) ∧
      (∀ name, DotImported env fn name → (f, ⟨fn.unparen.id, .dotImportUndeclared name⟩) ∈ st.diags) ∧
      (OutsideMethod env fn → (f, ⟨fn.id, .calleeUndeclared⟩) ∈ st.diags)) ∧
    (∀ g, Undeclared env id ∨ env.callee id = none ∧ extractErrorCodesFromTypeConversion env fn = [] → Defined env fn g →
      CallGraph.Settled (plan env fuel) f → ∃ G, st.found g = some G ∧ ∀ c ∈ G, c ∈ T) := by
  have hpos : 0 < fuel := by unfold bound at hf; omega
  obtain ⟨⟨f₀, hf₀, hreach⟩, hcodes⟩ := (CallGraph.cache_is_exact_partial h f).1 T hT
  have hdiag : ∀ d ∈ (plan env fuel f).reports, (f, d) ∈ st.diags := by
    intro d hd
    rw [← (CallGraph.body_once h f).1 ⟨f₀, hf₀, hreach⟩] at hd
    unfold CallGraph.diagnosticsOf at hd
    obtain ⟨⟨f', d'⟩, hm, rfl⟩ := List.mem_map.1 hd
    simp only [List.mem_filter, decide_eq_true_eq] at hm
    obtain ⟨h1, rfl⟩ := hm
    exact h1
  refine ⟨fun S hS c hcS => ?_, fun hu => ⟨fun name pkg ho => ?_, fun name ho => ?_, fun ho => ?_⟩, fun g hg hd hset => ?_⟩
  · obtain ⟨q, hq, hy, -⟩ := declared_call (f := f) (body := body) (fn := fn) (args := args) hS hpos
    exact (CallGraph.own_found h).2 f T hT c ((hc.contributes hr hf hq).1 hs _ _ ((hy _ _).2 hcS))
  · obtain ⟨q, hq, -, hrep, -⟩ := undeclared_foreign_call (f := f) (body := body) (args := args) hu ho hpos
    exact hdiag _ ((hc.contributes hr hf hq).2.1 _ (by rw [hrep]; exact List.mem_singleton.2 rfl))
  · obtain ⟨q, hq, -, hrep, -⟩ := undeclared_dot_import (f := f) (body := body) (args := args) hu ho hpos
    exact hdiag _ ((hc.contributes hr hf hq).2.1 _ (by rw [hrep]; exact List.mem_singleton.2 rfl))
  · obtain ⟨q, hq, -, hrep, -⟩ := undeclared_method_call (f := f) (body := body) (args := args) hu ho hpos
    exact hdiag _ ((hc.contributes hr hf hq).2.1 _ (by rw [hrep]; exact List.mem_singleton.2 rfl))
  · obtain ⟨q, hq, hy, -, ht, -⟩ := local_call (f := f) (body := body) (args := args) hg hd hpos
    have hedge : Calls (plan env fuel) f g := (hc.contributes hr hf hq).2.2 g (by rw [ht]; exact List.mem_singleton.2 rfl)
    obtain ⟨G, hG⟩ := (CallGraph.cache_is_exact_partial h g).2 ⟨f₀, hf₀, hreach.trans (.step hedge (.refl g))⟩
    refine ⟨G, hG, fun c hc' => (hcodes hset c).2 ?_⟩
    have := (CallGraph.found_derivable h).2 g G hG c hc'
    exact CodesOf.consistent.1 f c ((hc.contributes hr hf hq).1 hs _ _ ((hy _ _).2 this))

/-! ## Example

```go
func F() error { if … { return pkg.New() }; if … { return pkg.Other() }; err := g(); return err }
func g() error { return pkg.New() }
```

`pkg.New` declares `a-error`, `pkg.Other` declares nothing. -/

def exBody : List Node :=
  [.other 1 [.ret 2 [.call 3 (.selector 4 (.ident ⟨5, b!"pkg", none⟩) ⟨6, b!"New", none⟩) []]],
   .other 7 [.ret 8 [.call 9 (.selector 10 (.ident ⟨5, b!"pkg", none⟩) ⟨12, b!"Other", none⟩) []]],
   .assign 13 [.ident ⟨14, b!"err", some 0⟩] [.call 15 (.ident ⟨16, b!"g", some 1⟩) []],
   .ret 17 [.ident ⟨18, b!"err", some 0⟩]]

def exEnv : Env :=
  { Tracking.plainEnv [⟨.var, 30, .other⟩, ⟨.fun_, 200, .funcDecl 1⟩] with
    funcs := [⟨100, some ⟨101, b!"F", none⟩, ⟨[], some [⟨[], 11⟩], 10⟩, some exBody, 20, 100⟩,
      ⟨102, some ⟨103, b!"g", none⟩, ⟨[], some [⟨[], 11⟩], 110⟩,
        some [.ret 40 [.call 41 (.selector 42 (.ident ⟨5, b!"pkg", none⟩) ⟨44, b!"New", none⟩) []]], 120, 200⟩]
    callee := fun n => if n = 3 ∨ n = 41 then some 50 else if n = 9 then some 51 else if n = 15 then some 52 else none
    pkgName := fun n => if n = 5 then some b!"pkg" else none
    facts := ⟨fun o => if o = 50 then some [b!"a-error"] else none, fun _ => none, fun _ => none, fun _ => none⟩ }

theorem exEnv_regular : Regular exEnv 0 exBody := .of_simple rfl (by decide) rfl

theorem exEnv_noCycle : CallGraph.NoLiteralCycle (plan exEnv (bound exEnv)) := by
  intro f g hg
  match f with
  | 0 => rw [show (plan exEnv (bound exEnv) 0).visits = [] from by rfl] at hg; cases hg
  | 1 => rw [show (plan exEnv (bound exEnv) 1).visits = [] from by rfl] at hg; cases hg
  | f + 2 => simp [plan, bodyPlan, Env.func, exEnv, Plan.visits] at hg

/-- All hypotheses of `calls_in_run` hold for `F`, the run succeeds, and the three kinds of calls occur. -/
example : Regular exEnv 0 exBody ∧ NoSub exEnv exBody ∧ CallGraph.NoLiteralCycle (plan exEnv (bound exEnv)) ∧
    (∃ st, Search.findAll (plan exEnv (bound exEnv)) 4 [0] Search.start = .ok ([(0, [b!"a-error"])], st) ∧
      st.found 0 = some [b!"a-error"] ∧ st.diags = [(0, ⟨10, .foreignUndeclared b!"Other" b!"pkg"⟩)]) ∧
    (ErrCall exEnv 0 exBody 3 (.selector 4 (.ident ⟨5, b!"pkg", none⟩) ⟨6, b!"New", none⟩) [] ∧ Declares exEnv 3 [b!"a-error"]) ∧
    (ErrCall exEnv 0 exBody 9 (.selector 10 (.ident ⟨5, b!"pkg", none⟩) ⟨12, b!"Other", none⟩) [] ∧ Undeclared exEnv 9 ∧
      OtherPackage exEnv (.selector 10 (.ident ⟨5, b!"pkg", none⟩) ⟨12, b!"Other", none⟩) b!"Other" b!"pkg") ∧
    (ErrCall exEnv 0 exBody 15 (.ident ⟨16, b!"g", some 1⟩) [] ∧ Undeclared exEnv 15 ∧ Defined exEnv (.ident ⟨16, b!"g", some 1⟩) 1) := by
  have ret : ∀ id e, .ret id [e] ∈ Node.inspectList intoReturns exBody → ErrExpr exEnv 0 exBody e := fun id e h =>
    .root ⟨id, [e], ⟨(mem_inspectList _ _ _).1 h, fun a ha => by simp [exEnv, Tracking.plainEnv, getReturnStmtAnnotations] at ha⟩, .inl rfl⟩
  refine ⟨exEnv_regular, ?_, exEnv_noCycle, ⟨_, rfl, rfl, rfl⟩, ⟨?_, 50, rfl, rfl, rfl⟩, ⟨?_, ⟨51, rfl, rfl, rfl⟩, ?_⟩,
    ⟨?_, ⟨52, rfl, rfl, rfl⟩, .inl ⟨_, 1, rfl, rfl, rfl⟩⟩⟩
  · intro id results a _ ha
    simp [exEnv, Tracking.plainEnv, getReturnStmtAnnotations] at ha
  · exact .expr (ret 2 (.call 3 (.selector 4 (.ident ⟨5, b!"pkg", none⟩) ⟨6, b!"New", none⟩) []) (by simp [exBody, Node.inspectList, Node.inspect, intoReturns])) rfl
  · exact .expr (ret 8 (.call 9 (.selector 10 (.ident ⟨5, b!"pkg", none⟩) ⟨12, b!"Other", none⟩) []) (by simp [exBody, Node.inspectList, Node.inspect, intoReturns])) rfl
  · exact ⟨10, _, _, _, rfl, rfl, rfl, rfl⟩
  · have hsrc : Source exEnv exBody 0 (.call 15 (.ident ⟨16, b!"g", some 1⟩) []) :=
      .inr ⟨13, [.ident ⟨14, b!"err", some 0⟩], [.call 15 (.ident ⟨16, b!"g", some 1⟩) []], ⟨_, by simp [exBody], .self⟩, rfl,
        0, _, _, rfl, rfl, rfl, rfl⟩
    have hret : ErrExpr exEnv 0 exBody (.ident ⟨18, b!"err", some 0⟩) :=
      ret 17 _ (by simp [exBody, Node.inspectList, Node.inspect, intoReturns])
    refine .expr (.assigned hret ⟨.inl rfl, rfl, by decide, .inr ⟨.inr ⟨0, rfl, by decide, by decide⟩, ?_⟩⟩ hsrc) rfl
    intro o _; exact simple_noLit (env := exEnv) (by decide) o

end Serum.Props.Calls
