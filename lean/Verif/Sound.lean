import Verif.SoundCall
import Verif.Props.Fields

/-! # Soundness: the errors that may be returned have codes that were found -/

namespace Serum
namespace Runtime
open Flow Analyse Taint Props.Calls Props.Extract Props.Claims

variable {env : Env} {X : Extra} {fuel : Nat} {f : FnId} {body : List Node}

theorem Fine.shape (h : Fine env X fuel f body) : ∃ (q : BodyPlan) (v : List ObjId),
    (∀ l ∈ q.leaves, l ∈ (plan env fuel f).leaves) ∧
    ReturnStep env f body fuel (retsOf (Node.inspectList intoReturns body)) [] q v := by
  obtain ⟨pc, hpc, hp⟩ := h.regular.look h.enough
  obtain ⟨q, v, hplan, hret⟩ := bodyPlan_shape h.regular.has h.regular.scope h.regular.parsed (bound_enough h.enough) hpc hp
  refine ⟨q, v, fun l hl => ?_, hret⟩
  rw [hplan]
  simp [Plan.leaves, hl]

/-- An error expression of a silent function. -/
theorem Fine.expr (h : Fine env X fuel f body) {e : Node} (he : ErrExpr env f body e) :
    (∀ i, RefersTo env e i → Local env (env.func f) body none i) ∧
    ∃ q, terminal env f body fuel e = .ok q ∧ Part env fuel f q := by
  obtain ⟨q, v, hl, hret⟩ := h.shape
  obtain ⟨h1, q', h2, h3⟩ := hret.errExpr he
  refine ⟨fun i hi => Classical.byContradiction fun hn => ?_, q', h2, fun l hl' => (h3 l hl').imp id (hl l)⟩
  exact (h.leaf (hl _ ((h1 i hi).2 hn))).1 _ rfl

/-- A destructured error variable of a silent function. -/
theorem Fine.destruct (h : Fine env X fuel f body) {x : ObjId} (hx : ErrVar env f body x) {d : Destruct}
    (hd : Destructured env body x d) : ∃ q, terminalD env f body fuel d = .ok q ∧ Part env fuel f q := by
  obtain ⟨q, v, hl, hret⟩ := h.shape
  obtain ⟨-, q', h2, h3⟩ := (hret.done x (hret.visited.2 hx) (by simp)).2 d hd
  exact ⟨q', h2, fun l hl' => (h3 l hl').imp id (hl l)⟩

/-- What becomes of a text used as error code without a report. -/
theorem Fine.code (h : Fine env X fuel f body) {arg : GoString} {e : Node} {s : GoString}
    (ht : Text env X f body arg (.expr e) s) (hs : (extractErrorCodeFromStringExpression env f e).2 = []) :
    s = [] ∨ (extractErrorCodeFromStringExpression env f e).1 = some s ∨ (∀ ρ, (plan env fuel f).Yields ρ s) ∨
      (importErrorConstructorFact env f ≠ none ∧ s = arg) := (h.text ht).1 e rfl hs

theorem findFieldInit_unparen (fd : ErrorCodeField) : ∀ e : Node, (findFieldInit fd e).1 = (findFieldInit fd e.unparen).1 ∧
    ((findFieldInit fd e).2 = [] ↔ (findFieldInit fd e.unparen).2 = []) := by
  intro e
  match e with
  | .paren id x =>
    obtain ⟨-, h1, h2⟩ := literal_wrapped fd id x
    obtain ⟨h3, h4⟩ := findFieldInit_unparen fd x
    rw [Node.unparen]
    exact ⟨h1.trans h3, h2.trans h4⟩
  | .ident _ | .basicLit _ | .compositeLit .. | .keyValue .. | .funcLit .. | .selector .. | .index .. | .typeAssert ..
  | .call .. | .unary .. | .assign .. | .ret .. | .valueSpec .. | .typeSwitch .. | .caseClause .. | .range .. | .send ..
  | .other .. => exact ⟨rfl, Iff.rfl⟩

/-- An error expression that is neither variable nor call, without report. -/
theorem affector_inv {e : Node} (h : Calm (founds (extractErrorCodesFromAffector env f e))) :
    ∃ et, typeAt env e.id = some et ∧ (∀ ρ c, c ∈ et.codes → (founds (extractErrorCodesFromAffector env f e)).Yields ρ c) ∧
      ∀ fd, et.field = some fd → (findFieldInit fd e).2 = [] ∧ ∀ v, (findFieldInit fd e).1 = some v →
        (extractErrorCodeFromStringExpression env f v).2 = [] ∧
        ∀ c, (extractErrorCodeFromStringExpression env f v).1 = some c →
          ∀ ρ, (founds (extractErrorCodesFromAffector env f e)).Yields ρ c := by
  have hrep := h.left.reports
  unfold extractErrorCodesFromAffector at hrep
  split at hrep
  · simp at hrep
  · rename_i hleg
    split at hrep
    · simp at hrep
    · rename_i et het
      have hres : ∀ c ∈ et.codes, c ∈ CodeSet.union [] (CodeSet.ofSlice et.codes) := by
        intro c hc
        rw [CodeSet.mem_union, CodeSet.mem_ofSlice]; exact .inr hc
      refine ⟨et, het, fun ρ c hc => ?_, fun fd hfd => ?_⟩
      · rw [founds_yields]
        unfold extractErrorCodesFromAffector
        rw [if_neg hleg, het]
        dsimp only
        repeat' split
        · exact hres c hc
        · rw [CodeSet.mem_add]; exact .inl (hres c hc)
        · exact hres c hc
      · simp only [founds_yields]
        unfold extractErrorCodesFromAffector
        rw [if_neg hleg, het]
        simp only [hfd] at hrep ⊢
        have hds : (extractFieldErrorCode env f e fd).2 = [] := by
          split at hrep <;> (rename_i h'; rw [h']; exact hrep)
        unfold extractFieldErrorCode at hds ⊢
        cases hff : findFieldInit fd e with
        | mk v ds =>
          cases v with
          | none =>
            rw [hff] at hds
            exact ⟨hds, fun v hv => (nomatch hv)⟩
          | some v =>
            rw [hff] at hds
            simp only [List.append_eq_nil_iff] at hds
            refine ⟨hds.1, fun v' hv' => ?_⟩
            cases hv'
            refine ⟨hds.2, fun c hc _ => ?_⟩
            simp only [hc]
            rw [CodeSet.mem_add]; exact .inr rfl

/-- The content of the code field of a literal that is looked at without report. -/
theorem Fine.fieldInit (h : Fine env X fuel f body) {arg : GoString} {et : ErrorType} {elts : List Node} {s : GoString}
    (hi : FieldInit env X f body arg et elts s) {fd : ErrorCodeField} (hfd : et.field = some fd) {id : NodeId}
    (hlit : KeyedLit elts ∨ ∀ e ∈ elts, ∀ id k v, e ≠ .keyValue id k v) :
    s = [] ∨ ∃ v, findFieldInit fd (.compositeLit id elts) = (some v, []) ∧ Text env X f body arg (.expr v) s := by
  rcases hi fd hfd with ⟨e, v, he, hp, ht⟩ | ⟨hpos, v, hv, ht⟩ | ⟨-, hs⟩
  · rcases hlit with hk | hn
    · exact .inr ⟨v, (keyed_literal fd id elts hk).1 e v he hp, ht⟩
    · obtain ⟨id', i, rfl, -⟩ := hp
      exact absurd rfl (hn _ he _ _ _)
  · refine .inr ⟨v, ?_, ht⟩
    have hlt : fd.position < elts.length := (List.getElem?_eq_some_iff.1 hv).1
    have hlen : elts.length ≠ 0 := by omega
    have : findKeyed fd.name elts = (false, none) := by
      cases elts with
      | nil => rfl
      | cons v vs =>
        unfold findKeyed
        split
        · rename_i heq; injection heq with h1 _; exact absurd h1 (hpos v (by simp) _ _ _)
        · rename_i heq; injection heq with h1 _; exact absurd h1 (hpos v (by simp) _ _ _)
        · rfl
    simp only [findFieldInit, findFieldInitIn, hlen, if_false, this, hlt, if_true, hv]
  · exact .inl hs

/-- What may become of a code of an error that is returned by a silent function. -/
def Good (env : Env) (fuel : Nat) (f : FnId) (body : List Node) (R : Node → Prop) (arg : GoString) (c : GoString) : Prop :=
  c = [] ∨ (∃ l, Just env f body fuel R l ∧ l.Yields (CodesOf (plan env fuel)) c) ∨
  (plan env fuel f).Yields (CodesOf (plan env fuel)) c ∨ (importErrorConstructorFact env f ≠ none ∧ c = arg)

/-- The same for one call. -/
def GoodCall (env : Env) (fuel : Nat) (f : FnId) (q : BodyPlan) (arg : GoString) (c : GoString) : Prop :=
  c = [] ∨ q.Yields (CodesOf (plan env fuel)) c ∨
  (plan env fuel f).Yields (CodesOf (plan env fuel)) c ∨ (importErrorConstructorFact env f ≠ none ∧ c = arg)

/-- The function literals and functions called through a variable. -/
def lambdaCall (env : Env) (f : FnId) (body : List Node) (fuel depth : Nat) : Node → Option Object → Except Stop BodyPlan :=
  fun n o => call env f body fuel depth n o none

/-- What is shown of everything that yields errors; `P` are the functions that were looked at. -/
def Claim (env : Env) (fuel : Nat) (P : FnId → Prop) (o : Obj) : Origin → Prop
  | .ret f arg => P f → ∀ c, o.may c → c = [] ∨ CodesOf (plan env fuel) f c ∨ (importErrorConstructorFact env f ≠ none ∧ c = arg)
  | .expr f body arg e => P f → (env.func f).body = some body → ∀ id results, Returns env body id results →
      ErrExprFrom env f body (ResultOf env f results) e → ∀ c, o.may c → Good env fuel f body (ResultOf env f results) arg c
  | .var f body arg x => P f → (env.func f).body = some body → ∀ id results, Returns env body id results →
      ErrVarFrom env f body (ResultOf env f results) x → ∀ c, o.may c → Good env fuel f body (ResultOf env f results) arg c
  | .call f body arg id fn args => P f → (env.func f).body = some body → ErrCall env f body id fn args →
      ∀ q, callExpression env f body fuel id fn args = .ok q → Part env fuel f q → ∀ c, o.may c → GoodCall env fuel f q arg c
  | .callVar f body x => P f → (env.func f).body = some body → ∀ id fn args i, ErrCall env f body id fn args →
      fn.unparen = .ident i → Tracked env (env.func f) body none [] i x → ∀ depth p,
      allAssignedLambdas env f body fuel (lambdaCall env f body fuel depth) i = .ok p → Part env fuel f p →
      ∀ c, o.may c → c = [] ∨ p.Yields (CodesOf (plan env fuel)) c
  | .apply f body e => P f → (env.func f).body = some body → ∀ id fn args i x, ErrCall env f body id fn args →
      fn.unparen = .ident i → Tracked env (env.func f) body none [] i x → Source env body x e → (¬ ∃ j y, VarUse env e j y) →
      ∀ depth p, lambdaAssignment env i.name (lambdaCall env f body fuel depth) e.unparen = .ok p → Part env fuel f p →
      ∀ c, o.may c → c = [] ∨ p.Yields (CodesOf (plan env fuel)) c

theorem errExpr_any {id : NodeId} {results : List Node} (hr : Returns env body id results) {e : Node}
    (he : ErrExprFrom env f body (ResultOf env f results) e) : ErrExpr env f body e := by
  have : ∀ e, ErrExprFrom env f body (ResultOf env f results) e → ErrExpr env f body e := by
    intro e he
    induction he with
    | root h => exact .root ⟨id, results, hr, h⟩
    | assigned _ hv hs ih => exact .assigned ih hv hs
    | asserted _ hv hd hu ih => exact .asserted ih hv hd hu
  exact this e he

theorem errVar_any {id : NodeId} {results : List Node} (hr : Returns env body id results) {x : ObjId}
    (hx : ErrVarFrom env f body (ResultOf env f results) x) : ErrVar env f body x :=
  let ⟨e, i, he, hv⟩ := hx; ⟨e, i, errExpr_any hr he, hv⟩

theorem local_declared {i : Ident} {x : ObjId} (h : Local env (env.func f) body none i) (ho : i.obj = some x)
    (hn : i.name ≠ b!"nil") : Declared env f x := by
  rcases h with ⟨h, -⟩ | ⟨h | ⟨o, h1, h2, h3⟩, -⟩
  · exact absurd rfl h
  · exact absurd h hn
  · rw [ho] at h1; cases h1; exact ⟨h2, h3⟩

theorem errVar_declared {R : Node → Prop} {x : ObjId} (h : ErrVarFrom env f body R x) : Declared env f x := by
  obtain ⟨e, i, -, -, h1, h2, h3⟩ := h
  exact local_declared h3 h1 h2

theorem tracked_declared {i : Ident} {x : ObjId} (h : Tracked env (env.func f) body none [] i x) : Declared env f x := by
  cases h with
  | start h1 h2 h3 _ => exact local_declared h3 h1 h2
  | step _ _ hv h1 h2 _ => exact local_declared h2 hv.2.1 h1

theorem tracked_obj {i : Ident} {x : ObjId} (h : Tracked env (env.func f) body none [] i x) : ∃ x₀, i.obj = some x₀ := by
  induction h with
  | start h _ _ _ => exact ⟨_, h⟩
  | step _ _ _ _ _ _ ih => exact ih

/-- What is known about a called function variable. -/
theorem Fine.lambdas (h : Fine env X fuel f body) {id : NodeId} {fn : Node} {args : List Node} {i : Ident} {x : ObjId}
    (hc : ErrCall env f body id fn args) (hfn : fn.unparen = .ident i) (ho : i.obj = some x) {depth : Nat} {p : BodyPlan}
    (hp : allAssignedLambdas env f body fuel (lambdaCall env f body fuel depth) i = .ok p) (hpart : Part env fuel f p) :
    Local env (env.func f) body none i ∧
    ∀ y, Tracked env (env.func f) body none [] i y → (∀ d, ¬ Destructured env body y d) ∧
      (∀ e j z, Source env body y e → VarUse env e j z → Local env (env.func f) body none j) ∧
      ∀ e, Source env body y e → (¬ ∃ j z, VarUse env e j z) →
        ∃ p', lambdaAssignment env i.name (lambdaCall env f body fuel depth) e.unparen = .ok p' ∧ Part env fuel f p' ∧
          ∀ ρ c, p'.Yields ρ c → p.Yields ρ c := by
  have hcalm := h.part hpart
  unfold allAssignedLambdas lift at hp
  split at hp
  · rename_i t ht
    simp only [bind, Except.bind] at hp
    split at hp
    · cases hp
    · rename_i ps hps
      simp only [pure, Except.pure] at hp
      cases hp
      have hrep := hcalm.left.reports
      simp only [List.append_eq_nil_iff, List.map_eq_nil_iff] at hrep
      obtain ⟨h1, h2⟩ := hrep
      obtain ⟨-, s2, s3, s4⟩ := run_spec h.regular.scope.before ho (h.supported.calledClean _ _ _ _ _ hc hfn ho) ht
      have parts : ∀ es : List Node, ∀ ps, lambdaAssignments env i.name (lambdaCall env f body fuel depth) es = .ok ps →
          Part env fuel f ps → ∀ e ∈ es, ∃ p', lambdaAssignment env i.name (lambdaCall env f body fuel depth) e = .ok p' ∧
            Part env fuel f p' ∧ ∀ ρ c, p'.Yields ρ c → ps.Yields ρ c := by
        intro es
        induction es with
        | nil => intro _ _ _ e he; cases he
        | cons e es ih =>
          intro ps hps hpart e' he'
          simp only [lambdaAssignments, bind, Except.bind] at hps
          split at hps
          · cases hps
          · rename_i a ha
            split at hps
            · cases hps
            · rename_i b hb
              simp only [pure, Except.pure] at hps
              cases hps
              rcases List.mem_cons.1 he' with rfl | he'
              · exact ⟨a, ha, hpart.left, fun ρ c h => .inl h⟩
              · obtain ⟨p', h1, h2, h3⟩ := ih b hb hpart.right e' he'
                exact ⟨p', h1, h2, fun ρ c h => .inr (h3 ρ c h)⟩
      refine ⟨Classical.byContradiction fun hn => ?_, fun y hy => ⟨fun d hd => ?_, fun e j z hs hv =>
        Classical.byContradiction fun hn => ?_, fun e hs hv => ?_⟩⟩
      · have := (s4 i).2 ⟨hn, .inl rfl⟩
        rw [h1] at this; cases this
      · have := (s3 d).2 ⟨y, hy, hd⟩
        rw [h2] at this; cases this
      · have := (s4 j).2 ⟨hn, .inr ⟨y, e, z, hy, hs, hv⟩⟩
        rw [h1] at this; cases this
      · obtain ⟨p', k1, k2, k3⟩ := parts _ ps hps hpart.right e.unparen ((s2 _).2 ⟨y, e, hy, hs, hv, rfl⟩)
        exact ⟨p', k1, k2, fun ρ c h => .inr (k3 ρ c h)⟩
  · cases hp; exact absurd hcalm Calm.not_panic
  · cases hp

/-- What a constructor call contributes. -/
theorem Fine.argument (h : Fine env X fuel f body) {arg : GoString} {id : NodeId} {fn : Node} {args : List Node} {q : Object} {p : Nat}
    (hc : ErrCall env f body id fn args) (hq : env.callee id = some q) (hp : env.facts.ctor q = some p) {ctor : Found}
    (hctor : extractErrorCodeFromConstructorCall env f fn.id (env.callee id) (some args) = .ok ctor) (hs : ctor.2 = [])
    {s : GoString} (ht : ArgText env X f body arg args (p + X.shift id) s) :
    s = [] ∨ ctor.1 = some s ∨ (∀ ρ, (plan env fuel f).Yields ρ s) ∨ (importErrorConstructorFact env f ≠ none ∧ s = arg) := by
  unfold extractErrorCodeFromConstructorCall at hctor
  simp only [hq, hp] at hctor
  split at hctor
  · cases hctor
  · rename_i e he
    cases hctor
    rw [h.supported.constructors _ _ _ _ _ hc hq hp, Nat.add_zero] at ht
    exact h.code (ht e he) hs

/-- A declared error code parameter belongs to a declared function. -/
theorem ctor_declared {g : FnId} (h : importErrorConstructorFact env g ≠ none) :
    (env.func g).declName.isSome = true ∧ ∃ p, env.facts.ctor (env.funcObj g) = some p ∧ importErrorConstructorFact env g = some p := by
  unfold importErrorConstructorFact at h ⊢
  split at h
  · rename_i hd
    cases hc : env.facts.ctor (env.funcObj g) with
    | none => exact absurd hc h
    | some p => exact ⟨hd, p, rfl, by rw [if_pos hd]⟩
  · exact absurd rfl h

theorem unparen_ne_paren : ∀ (e : Node) (id : NodeId) (x : Node), e.unparen ≠ .paren id x := by
  intro e id x
  match e with
  | .paren _ y => rw [Node.unparen]; exact unparen_ne_paren y id x
  | .ident _ | .basicLit _ | .compositeLit .. | .keyValue .. | .funcLit .. | .selector .. | .index .. | .typeAssert ..
  | .call .. | .unary .. | .assign .. | .ret .. | .valueSpec .. | .typeSwitch .. | .caseClause .. | .range .. | .send ..
  | .other .. => simp [Node.unparen]

/-- The error expressions of a silent function. -/
theorem Fine.kinds (h : Fine env X fuel f body) {e : Node} (he : ErrExpr env f body e) :
    modelled e.unparen = true ∧
    ((∃ i, e.unparen = .ident i) ∨ (∃ id fn args, e.unparen = .call id fn args) ∨
     (∃ id y i, e.unparen = .unary id true y ∧ y.unparen = .ident i) ∨ typeAt env e.unparen.id ≠ none) := by
  obtain ⟨h1, q, hq, hp⟩ := h.expr he
  have hcalm := h.part hp
  have haff : ∀ e', q = founds (extractErrorCodesFromAffector env f e') → typeAt env e'.id ≠ none := by
    rintro e' rfl
    obtain ⟨et, het, -⟩ := affector_inv hcalm
    rw [het]; simp
  unfold terminal at hq
  split at hq
  · rename_i h'; rw [h']; exact ⟨rfl, .inr (.inl ⟨_, _, _, rfl⟩)⟩
  · rename_i h'; rw [h']; exact ⟨rfl, .inl ⟨_, rfl⟩⟩
  · rename_i id isAnd x h'
    rw [h']
    split at hq
    · rename_i hb
      have ha : isAnd = true := by simp at hb; exact hb.1
      subst ha
      refine ⟨rfl, ?_⟩
      split at hq
      · rename_i i hi; exact .inr (.inr (.inl ⟨_, _, _, rfl, hi⟩))
      · cases hq; exact .inr (.inr (.inr (haff _ rfl)))
    · cases hq; exact hcalm.not_report.elim
  · rename_i h'; rw [h']; cases hq; exact ⟨rfl, .inr (.inr (.inr (haff _ rfl)))⟩
  · rename_i h'; rw [h']; cases hq; exact ⟨rfl, .inr (.inr (.inr (haff _ rfl)))⟩
  · rename_i id x sel h'
    exfalso
    obtain ⟨h2, h3⟩ := h.parsed.selectors e _ _ _ he h'
    exact h3 ((local_noObj h2).1 (h1 _ (.inr (.inr ⟨_, _, h'⟩))))
  all_goals cases hq; exact hcalm.not_report.elim

/-- A call of a silent function. -/
theorem Fine.called (h : Fine env X fuel f body) {id : NodeId} {fn : Node} {args : List Node} {q : BodyPlan}
    (hq : callExpression env f body fuel id fn args = .ok q) (hp : Part env fuel f q) :
    ∃ ctor depth, extractErrorCodeFromConstructorCall env f fn.id (env.callee id) (some args) = .ok ctor ∧ ctor.2 = [] ∧
      ((∃ o S, env.callee id = some o ∧ env.facts.codes o = some S ∧ ∀ ρ c, (c ∈ S ∨ ctor.1 = some c) → q.Yields ρ c) ∨
       ((¬ ∃ o S, Trusted env id o S) ∧ env.callee id = none ∧ extractErrorCodesFromTypeConversion env fn ≠ [] ∧
          ∀ ρ c, c ∈ extractErrorCodesFromTypeConversion env fn → q.Yields ρ c) ∨
       ((¬ ∃ o S, Trusted env id o S) ∧ (env.callee id = none → extractErrorCodesFromTypeConversion env fn = []) ∧
          ((∃ g, Defined env fn g ∧ Calls (plan env fuel) f g ∧ ∀ ρ c, (ρ g c ∨ ctor.1 = some c) → q.Yields ρ c) ∨
           (∃ i x, fn.unparen = .ident i ∧ i.obj = some x ∧ (env.object x).decl = .typeSpec ∧
              Calm (founds (extractErrorCodesFromAffector env f (.call id fn args)))) ∨
           (∃ i x p, fn.unparen = .ident i ∧ i.obj = some x ∧ (env.object x).decl ≠ .typeSpec ∧
              (∀ g, (env.object x).decl ≠ .funcDecl g) ∧
              allAssignedLambdas env f body fuel (lambdaCall env f body fuel depth) i = .ok p ∧ Part env fuel f p ∧
              ∀ ρ c, p.Yields ρ c → q.Yields ρ c)))) := by
  obtain ⟨depth, hd⟩ : ∃ depth, fuel = depth + 1 := ⟨fuel - 1, by have := h.enough; unfold bound at this; omega⟩
  have hcall : callExpression env f body fuel id fn args =
      functionCall env f (allAssignedLambdas env f body fuel (lambdaCall env f body fuel depth)) fn (env.callee id) (some (id, args)) := by
    rw [callExpression]
    conv => lhs; arg 5; rw [hd]
    rfl
  rw [hcall] at hq
  have hcalm := h.part hp
  have hnt : (env.callee id).bind env.facts.codes = none → ¬ ∃ o S, Trusted env id o S := by
    rintro hn ⟨o, S, h1, h2⟩
    rw [h1] at hn
    simp [h2] at hn
  obtain ⟨ctor, hctor, hsil, hcase⟩ := functionCall_inv hq hcalm
  refine ⟨ctor, depth, hctor, hsil, ?_⟩
  rcases hcase with ⟨S, h1, h2⟩ | ⟨h1, -, h3, h4, h5⟩ | ⟨h1, h2, h3⟩
  · cases hc : env.callee id with
    | none => rw [hc] at h1; cases h1
    | some o => rw [hc] at h1; exact .inl ⟨o, S, rfl, h1, h2⟩
  · exact .inr (.inl ⟨hnt h1, h3, h4, h5⟩)
  · refine .inr (.inr ⟨hnt h1, h2 rfl, ?_⟩)
    rcases h3 with ⟨ds, p, h3, h4⟩ | ⟨g, h3, h4, h5⟩
    · subst h4
      rcases calledFunction_inv h3 (fun p' hp' => by cases hp'; exact hcalm.right) with
        ⟨g, h', -⟩ | h' | ⟨i, x, h4, h5, h6, p₁, h7, h7'⟩ | ⟨i, x, p', h4, h5, h6, h7, h8, h9⟩
      · cases h'
      · cases h'
      · cases h7
        exact .inr (.inl ⟨i, x, h4, h5, h6, h7' id args rfl ▸ hcalm.right⟩)
      · cases h9
        exact .inr (.inr ⟨i, x, p, h4, h5, h6, h7, h8, hp.right, fun ρ c h => .inr h⟩)
    · refine .inl ⟨g, ?_, hp.target h4, h5⟩
      rcases calledFunction_inv h3 (fun p' hp' => by cases hp') with
        ⟨g', h', hd⟩ | h' | ⟨i, x, h4, h5, h6, p₁, h7, h7'⟩ | ⟨i, x, p', h4, h5, h6, h7, h8, h9⟩
      · cases h'; exact hd
      · cases h'
      · cases h7
      · cases h9

/-- A function assigned to a variable that is called. -/
theorem Fine.applied (h : Fine env X fuel f body) {e : Node} {depth : Nat} {p : BodyPlan}
    (hp : lambdaAssignment env name (lambdaCall env f body fuel depth) e.unparen = .ok p) (hpart : Part env fuel f p)
    (hvar : ∀ j o, e.unparen = .ident j → j.obj = some o → ∃ g, (env.object o).decl = .funcDecl g) :
    (∃ id g type b, e.unparen = .funcLit id g type b ∧ p = .visit g) ∨
    ((∀ o, Denotes env e = some o → env.facts.ctor o = none) ∧
      ((∃ o S, Denotes env e = some o ∧ env.facts.codes o = some S ∧ ∀ ρ c, c ∈ S → p.Yields ρ c) ∨
       ((¬ ∃ o S, Denotes env e = some o ∧ env.facts.codes o = some S) ∧
        ∃ g, Defined env e g ∧ Calls (plan env fuel) f g ∧ ∀ ρ c, ρ g c → p.Yields ρ c))) := by
  have hcalm := h.part hpart
  have key : ∀ n : Node, n.unparen = e.unparen → lambdaCall env f body fuel depth n (Denotes env e) = .ok p →
      (∀ o, Denotes env e = some o → env.facts.ctor o = none) ∧
      ((∃ o S, Denotes env e = some o ∧ env.facts.codes o = some S ∧ ∀ ρ c, c ∈ S → p.Yields ρ c) ∨
       ((¬ ∃ o S, Denotes env e = some o ∧ env.facts.codes o = some S) ∧
        ∃ g, Defined env e g ∧ Calls (plan env fuel) f g ∧ ∀ ρ c, ρ g c → p.Yields ρ c)) := by
    intro n hn hcall
    cases depth with
    | zero => simp [lambdaCall, call] at hcall
    | succ depth =>
      unfold lambdaCall call at hcall
      obtain ⟨ctor, hctor, hsil, hcase⟩ := functionCall_inv hcall hcalm
      refine ⟨fun o ho => ?_, ?_⟩
      · rw [ho] at hctor
        simp only [extractErrorCodeFromConstructorCall, Option.map_none] at hctor
        split at hctor
        · assumption
        · cases hctor; cases hsil
      · rcases hcase with ⟨S, h1, h2⟩ | ⟨-, h2, -⟩ | ⟨h1, -, h3⟩
        · cases hc : Denotes env e with
          | none => rw [hc] at h1; cases h1
          | some o => rw [hc] at h1; exact .inl ⟨o, S, rfl, h1, fun ρ c h => h2 ρ c (.inl h)⟩
        · cases h2
        · refine .inr ⟨?_, ?_⟩
          · rintro ⟨o, S, h4, h5⟩
            rw [h4] at h1
            simp [h5] at h1
          · rcases h3 with ⟨ds, p', h3, h4⟩ | ⟨g, h3, h4, h5⟩
            · exfalso
              subst h4
              rcases calledFunction_inv h3 (fun p' hp' => by cases hp'; exact hcalm.right) with
                ⟨g, h', -⟩ | h' | ⟨i, x, h4, h5, h6, p₁, h7, h7'⟩ | ⟨i, x, p', h4, h5, h6, h7, h8, h9⟩
              · cases h'
              · cases h'
              · obtain ⟨g, hg⟩ := hvar i x (hn ▸ h4) h5
                rw [h6] at hg; cases hg
              · obtain ⟨g, hg⟩ := hvar i x (hn ▸ h4) h5
                exact h7 g hg
            · refine ⟨g, ?_, hpart.target h4, fun ρ c h => h5 ρ c (.inl h)⟩
              rcases calledFunction_inv h3 (fun p' hp' => by cases hp') with
                ⟨g', h', hd⟩ | h' | ⟨i, x, h4, h5, h6, p₁, h7, h7'⟩ | ⟨i, x, p', h4, h5, h6, h7, h8, h9⟩
              · cases h'
                unfold Defined at hd ⊢
                rw [hn] at hd
                exact hd
              · cases h'
              · cases h7
              · cases h9
  unfold lambdaAssignment at hp
  rw [unparen_idem] at hp
  split at hp
  · rename_i h'; cases hp; exact .inl ⟨_, _, _, _, h', rfl⟩
  · rename_i i h'
    have hden : Denotes env e = env.uses i.id := by simp [Denotes, h']
    rw [← hden] at hp
    exact .inr (key (.ident i) h'.symm hp)
  · rename_i id x sel h'
    have hden : ∀ c, lambdaCall env f body fuel depth (.selector id x sel) c = .ok p → c = Denotes env e →
        lambdaCall env f body fuel depth (.selector id x sel) (Denotes env e) = .ok p := by
      rintro c h rfl; exact h
    refine .inr (key (.selector id x sel) h'.symm (hden _ hp ?_))
    simp only [Denotes, h']
    cases env.selection id with
    | none => rfl
    | some o => rfl
  · cases hp; exact hcalm.not_report.elim

/-- What the function stores in code fields. -/
theorem Fine.stored (hF : Fine env X fuel f body) (hforeign : ForeignStores X) {arg : GoString} {et : ErrorType} {c : GoString}
    (hst : Stored env X f body arg et c) :
    c ∈ et.codes ∨ c = [] ∨ (plan env fuel f).Yields (CodesOf (plan env fuel)) c ∨
      (importErrorConstructorFact env f ≠ none ∧ c = arg) := by
  cases hst with
  | foreign hx' => exact .inl (hforeign _ _ hx')
  | unknown ho hl hu hcf hor =>
    rename_i aid lhs rhs k l sid y sel
    obtain ⟨hw, hop, i, x', fd, rfl, hix, hX, hty, hfd, hsel⟩ := hF.supported.stores _ _ _ _ _ _ _ _ _ ho hl hu hcf
    exfalso
    rcases hor with hlen | hor
    · have hne : lhs ≠ [] := by rintro rfl; cases hl
      cases hrhs : rhs with
      | nil =>
        exact hF.regular.parsed.assigns aid lhs rhs ho hne hrhs
      | cons r rs =>
        refine (hF.leaf (Props.Fields.assigned_leaf hF.regular hF.enough hX hty hfd (l := .report ⟨r.id, .notConstant⟩) (by simp) ?_)).1 _ rfl
        exact .destructured ((mem_inspectList _ _ _).2 hw) hlen ⟨_, _, _, hl, hix, hsel⟩ (by rw [hrhs]; rfl) rfl
    · rw [hop] at hor; cases hor
  | assigned ho hl hu hcf hlen hop hrhs ht =>
    rename_i aid lhs rhs k l sid y sel e
    obtain ⟨hw, -, i, x', fd, rfl, hix, hX, hty, hfd, hsel⟩ := hF.supported.stores _ _ _ _ _ _ _ _ _ ho hl hu hcf
    have htgt : FieldTarget x' fd.name lhs k := ⟨_, _, _, hl, hix, hsel⟩
    have hleaf : ∀ l, l ≠ .codes [] → l ∈ (foundCode (extractErrorCodeFromStringExpression env f e)).leaves →
        l ∈ (fieldAssignments env f x' (Node.inspectList intoFields body)).leaves := fun l hn hl' =>
      (fieldAssignments_leaves hfd hn _ (fun id lhs rhs hin hlen hnil => by
        subst hnil
        exact hF.regular.parsed.assigns id lhs [] (Props.ErrorTypes.occurs_of_within ((mem_inspectList _ _ _).1 hin))
          (fun h => hlen (by simp [h])) rfl) hty.types).2
        (.assigned ((mem_inspectList _ _ _).2 hw) hlen htgt hrhs hl')
    have hsil : (extractErrorCodeFromStringExpression env f e).2 = [] := by
      refine List.eq_nil_iff_forall_not_mem.2 fun d hd => ?_
      refine (hF.leaf (Props.Fields.assigned_leaf hF.regular hF.enough hX hty hfd (l := .report d) (by simp)
        (.assigned ((mem_inspectList _ _ _).2 hw) hlen htgt hrhs ?_))).1 _ rfl
      simp only [foundCode, Plan.leaves, List.mem_append, reports_leaves]
      exact .inl (.inr ⟨d, hd, rfl⟩)
    rcases hF.code ht hsil with h' | h' | h' | h'
    · exact .inr (.inl h')
    · refine .inr (.inr (.inl (Props.Fields.fields_yield hF.regular hF.enough hX ?_)))
      refine Plan.leaf_yields (l := .codes [c]) (by simp [Plan.Yields]) (fieldAssignments_noMinus _ _) (hleaf _ (by simp) ?_)
      simp [foundCode, Plan.leaves, h']
    · exact .inr (.inr (.inl (h' _)))
    · exact .inr (.inr (.inr h'))

variable {P : FnId → Prop}

/-- **Soundness**: see `Props/Soundness.lean`. -/
theorem sound (hfine : ∀ f, P f → ∃ body, Fine env X fuel f body) (hclosed : ∀ f g, P f → Calls (plan env fuel) f g → P g)
    (hforeign : ForeignStores X) (hpromise : Promises env X) {w : Origin} {o : Obj} (h : Yields env X w o) : Claim env fuel P o w := by
  have fine : ∀ {f body}, P f → (env.func f).body = some body → Fine env X fuel f body := by
    intro f body hf hb
    obtain ⟨b, h⟩ := hfine f hf
    have := h.regular.has
    rw [hb] at this
    cases this
    exact h
  -- an error expression that is an affector
  have aff : ∀ {f body arg et s c} {e' : Node} {R : Node → Prop} {e : Node}, Fine env X fuel f body → ErrExprFrom env f body R e →
      terminal env f body fuel e = .ok (founds (extractErrorCodesFromAffector env f e')) →
      Part env fuel f (founds (extractErrorCodesFromAffector env f e')) → typeAt env e'.id = some et →
      (∀ fd, et.field = some fd → (findFieldInit fd e').2 = [] → s = [] ∨ ∃ v, findFieldInit fd e' = (some v, []) ∧
        Text env X f body arg (.expr v) s) →
      Obj.may ⟨et, s⟩ c → Good env fuel f body R arg c := by
    intro f body arg et s c e' R e hF he hterm hpart hty hs hc
    obtain ⟨et', het', hcodes, hfield⟩ := affector_inv (hF.part hpart)
    rw [hty] at het'
    cases het'
    have leaf : (founds (extractErrorCodesFromAffector env f e')).Yields (CodesOf (plan env fuel)) c → Good env fuel f body R arg c := by
      intro hy
      obtain ⟨l, hl, hy⟩ := Plan.yields_leaf hy
      exact .inr (.inl ⟨l, .terminal he hterm hl, hy⟩)
    rcases hc with hc | ⟨hne, rfl⟩
    · exact leaf (hcodes _ _ hc)
    · obtain ⟨fd, hfd⟩ := Option.ne_none_iff_exists'.1 hne
      obtain ⟨k1, k2⟩ := hfield fd hfd
      rcases hs fd hfd k1 with h' | ⟨v, hv, ht⟩
      · exact .inl h'
      · obtain ⟨k3, k4⟩ := k2 v (by rw [hv])
        rcases hF.code ht k3 with h' | h' | h' | h'
        · exact .inl h'
        · exact leaf (k4 _ h' _)
        · exact .inr (.inr (.inl (h' _)))
        · exact .inr (.inr (.inr h'))
  -- a reported expression
  have bad : ∀ {f body} {e : Node} {q : BodyPlan}, Fine env X fuel f body → ErrExpr env f body e →
      terminal env f body fuel e = .ok q → ¬ Calm q → False := by
    intro f body e q hF he hq hn
    obtain ⟨-, q', hq', hp⟩ := hF.expr he
    rw [hq] at hq'
    cases hq'
    exact hn (hF.part hp)
  induction h with
  | noBody hb =>
    intro hP
    obtain ⟨b, hF⟩ := hfine _ hP
    rw [hF.regular.has] at hb
    cases hb
  | deferred hd =>
    intro hP
    obtain ⟨b, hF⟩ := hfine _ hP
    rw [hF.supported.deferred] at hd
    cases hd
  | @returned f body arg id results e o hb hw hres _ hon ih =>
    intro hP c hc
    have hF := fine hP hb
    obtain ⟨pc, hpc⟩ := hF.regular.constructor hF.enough
    have out : ReturnYields env f body fuel (CodesOf (plan env fuel)) id results c → CodesOf (plan env fuel) f c := fun h =>
      CodesOf.consistent.1 f c ((hF.regular.yields hF.enough hF.separate hpc _ c).2 (.inr (.inl ⟨id, results, hw, h⟩)))
    have flow : Returns env body id results → (c ∈ Removed env id → ReturnYields env f body fuel (CodesOf (plan env fuel)) id results c) →
        c = [] ∨ CodesOf (plan env fuel) f c ∨ (importErrorConstructorFact env f ≠ none ∧ c = arg) := by
      intro hr hrem
      rcases ih hP hb id results hr (.root hres) c hc with h | ⟨l, hl, hy⟩ | h | h
      · exact .inl h
      · by_cases hm : c ∈ Removed env id
        · exact .inr (.inl (out (hrem hm)))
        · exact .inr (.inl (out (.flow hr hl hy hm)))
      · exact .inr (.inl (CodesOf.consistent.1 f c h))
      · exact .inr (.inr h)
    cases ha : (getReturnStmtAnnotations (env.comments id)).1 with
    | none =>
      refine flow ⟨hw, fun a h => by rw [ha] at h; cases h⟩ fun hm => ?_
      simp [Removed, ha] at hm
    | some a =>
      have hc' := hon a ha c hc
      by_cases ho : a.shouldOverwrite = true
      · rw [if_pos ho] at hc'
        exact hc'.imp (fun h => h) fun h => .inl (out (.overwrite ha ho h))
      · rw [if_neg ho] at hc'
        have ho' : a.shouldOverwrite = false := by simpa using ho
        refine flow ⟨hw, fun a' h => by rw [ha] at h; cases h; exact ho'⟩ fun hm => ?_
        simp [Removed, ha, ho'] at hm
        exact .add ha ho' (hc'.resolve_left fun h => h hm)
  | @read f body arg e i x o hu ho _ ih =>
    intro hP hb id results hr he c hc
    have hF := fine hP hb
    have hE := errExpr_any hr he
    have href : RefersTo env e i := .inl hu
    exact ih hP hb id results hr ⟨e, i, he, href, ho, hF.parsed.nilRefs e i x hE href ho, (hF.expr hE).1 i href⟩ c hc
  | @unresolved f body arg e i o hu ho hn =>
    intro hP hb id results hr he c hc
    have hF := fine hP hb
    exact absurd ((local_noObj ho).1 ((hF.expr (errExpr_any hr he)).1 i (.inl hu))) hn
  | @address f body arg e uid y i x o hu hy ho _ ih =>
    intro hP hb id results hr he c hc
    have hF := fine hP hb
    have hE := errExpr_any hr he
    cases hi : env.implError (env.typeOf uid) with
    | false => exact (bad hF hE (by simp [terminal, hu, hi]; rfl) Calm.not_report).elim
    | true =>
      have href : RefersTo env e i := .inr (.inl ⟨uid, y, hu, hi, hy⟩)
      exact ih hP hb id results hr ⟨e, i, he, href, ho, hF.parsed.nilRefs e i x hE href ho, (hF.expr hE).1 i href⟩ c hc
  | @addressUnresolved f body arg e uid y i o hu hy ho hn =>
    intro hP hb id results hr he c hc
    have hF := fine hP hb
    have hE := errExpr_any hr he
    cases hi : env.implError (env.typeOf uid) with
    | false => exact (bad hF hE (by simp [terminal, hu, hi]; rfl) Calm.not_report).elim
    | true => exact absurd ((local_noObj ho).1 ((hF.expr hE).1 i (.inr (.inl ⟨uid, y, hu, hi, hy⟩)))) hn
  | @literal f body arg e lid elts et s hu hty hs =>
    intro hP hb id results hr he c hc
    have hF := fine hP hb
    have hE := errExpr_any hr he
    have hterm : terminal env f body fuel e = .ok (founds (extractErrorCodesFromAffector env f (.compositeLit lid elts))) := by
      simp [terminal, hu]
    obtain ⟨-, q, hq, hp⟩ := hF.expr hE
    rw [hterm] at hq
    cases hq
    refine aff hF he hterm hp hty (fun fd hfd _ => ?_) hc
    exact hF.fieldInit hs hfd (hF.parsed.literals e lid elts et fd hE (.inl hu) hty hfd)
  | @pointerLiteral f body arg e uid y lid elts et s hu hy hty hs =>
    intro hP hb id results hr he c hc
    have hF := fine hP hb
    have hE := errExpr_any hr he
    cases hi : env.implError (env.typeOf uid) with
    | false => exact (bad hF hE (by simp [terminal, hu, hi]; rfl) Calm.not_report).elim
    | true =>
      have hterm : terminal env f body fuel e = .ok (founds (extractErrorCodesFromAffector env f (.unary uid true y))) := by
        simp [terminal, hu, hi, hy]
      obtain ⟨-, q, hq, hp⟩ := hF.expr hE
      rw [hterm] at hq
      cases hq
      refine aff hF he hterm hp hty (fun fd hfd _ => ?_) hc
      rw [(literal_wrapped fd uid y).1]
      have hw := findFieldInit_unparen fd y
      rw [hy] at hw
      rcases hF.fieldInit hs hfd (id := lid) (hF.parsed.literals e uid elts et fd hE (.inr ⟨y, lid, hu, hy⟩) hty hfd) with h' | ⟨v, hv, ht⟩
      · exact .inl h'
      · exact .inr ⟨v, Prod.ext (hw.1.trans (by rw [hv])) (hw.2.2 (by rw [hv])), ht⟩
  | @pointer f body arg e uid y et s hu hy1 hy2 hty =>
    intro hP hb id results hr he c hc
    have hF := fine hP hb
    have hE := errExpr_any hr he
    cases hi : env.implError (env.typeOf uid) with
    | false => exact (bad hF hE (by simp [terminal, hu, hi]; rfl) Calm.not_report).elim
    | true =>
      have hterm : terminal env f body fuel e = .ok (founds (extractErrorCodesFromAffector env f (.unary uid true y))) := by
        unfold terminal
        simp only [hu, hi, Bool.and_self, if_true]
      obtain ⟨-, q, hq, hp⟩ := hF.expr hE
      rw [hterm] at hq
      cases hq
      refine aff hF he hterm hp hty (fun fd hfd hsil => ?_) hc
      rw [(literal_wrapped fd uid y).1, (findFieldInit_unparen fd y).2] at hsil
      have h3 := hF.parsed.addresses e uid y
      exfalso
      cases hyu : y.unparen with
      | compositeLit => exact hy2 _ _ hyu
      | unary id' a y' =>
        cases a with
        | true => exact h3 _ _ hE hu hyu
        | false => rw [hyu] at hsil; simp [findFieldInit, findFieldInitIn] at hsil
      | paren => exact unparen_ne_paren _ _ _ hyu
      | _ => rw [hyu] at hsil; simp [findFieldInit, findFieldInitIn] at hsil
  | @basic f body arg e bid et s hu hty =>
    intro hP hb id results hr he c hc
    have hF := fine hP hb
    have hE := errExpr_any hr he
    have hterm : terminal env f body fuel e = .ok (founds (extractErrorCodesFromAffector env f (.basicLit bid))) := by
      simp [terminal, hu]
    obtain ⟨-, q, hq, hp⟩ := hF.expr hE
    rw [hterm] at hq
    cases hq
    refine aff hF he hterm hp hty (fun fd hfd hsil => ?_) hc
    simp [findFieldInit, findFieldInitIn] at hsil
  | @untagged f body arg e o h1 h2 h3 hty =>
    intro hP hb id results hr he c hc
    have hF := fine hP hb
    have hE := errExpr_any hr he
    exfalso
    rcases (hF.kinds hE).2 with ⟨i, h'⟩ | ⟨cid, fn, args, h'⟩ | ⟨uid, y, i, h', hy⟩ | h'
    · exact h1 _ h'
    · exact h2 _ _ _ h'
    · exact h3 _ _ _ h' hy
    · exact h' hty
  | @called f body arg e cid fn args o hu _ ih =>
    intro hP hb id results hr he c hc
    have hF := fine hP hb
    have hE := errExpr_any hr he
    obtain ⟨-, q, hq, hp⟩ := hF.expr hE
    have hcall : callExpression env f body fuel cid fn args = .ok q := by
      simpa [terminal, hu] using hq
    rcases ih hP hb (.expr hE hu) q hcall hp c hc with h | h | h | h
    · exact .inl h
    · obtain ⟨l, hl, hy⟩ := Plan.yields_leaf h
      exact .inr (.inl ⟨l, .terminal he hq hl, hy⟩)
    · exact .inr (.inr (.inl h))
    · exact .inr (.inr (.inr h))
  | @unknown f body arg e o hm =>
    intro hP hb id results hr he c hc
    have hF := fine hP hb
    have hE := errExpr_any hr he
    rw [(hF.kinds hE).1] at hm
    cases hm
  | @outside f body arg x o hn =>
    intro hP hb id results hr hx c hc
    exact absurd (errVar_declared hx) hn
  | @wild f body arg x o hw =>
    intro hP hb id results hr hx c hc
    exact absurd hw ((fine hP hb).supported.plain x (errVar_any hr hx))
  | @derefs f body arg x o hd =>
    intro hP hb id results hr hx c hc
    exact absurd hd (fine hP hb).supported.derefs
  | @zero f body arg x et hz =>
    intro hP hb id results hr hx c hc
    rcases hc with hc | ⟨-, hc⟩
    · rw [(fine hP hb).supported.zero x et (errVar_any hr hx) hz] at hc
      cases hc
    · exact .inl hc
  | @assigned f body arg x e o hs _ ih =>
    intro hP hb id results hr ⟨e', i, he', hv⟩ c hc
    exact ih hP hb id results hr (.assigned he' hv hs) c hc
  | @asserted f body arg x d tid y t o hd hu _ ih =>
    intro hP hb id results hr ⟨e', i, he', hv⟩ c hc
    exact ih hP hb id results hr (.asserted he' hv hd hu) c hc
  | @lastResult f body arg x d cid fn args n o hd hu ht hpos _ ih =>
    intro hP hb id results hr hx c hc
    have hF := fine hP hb
    have hX := errVar_any hr hx
    obtain ⟨q, hq, hp⟩ := hF.destruct hX hd
    have hcall : callExpression env f body fuel cid fn args = .ok q := by
      simpa [terminalD, hu, ht, hpos] using hq
    rcases ih hP hb (.last hX hd hu ht hpos) q hcall hp c hc with h | h | h | h
    · exact .inl h
    · obtain ⟨l, hl, hy⟩ := Plan.yields_leaf h
      exact .inr (.inl ⟨l, .destruct hx hd hq hl, hy⟩)
    · exact .inr (.inr (.inl h))
    · exact .inr (.inr (.inr h))
  | @destructured f body arg x d o hd h1 h2 =>
    intro hP hb id results hr hx c hc
    have hF := fine hP hb
    obtain ⟨q, hq, hp⟩ := hF.destruct (errVar_any hr hx) hd
    have hcalm := hF.part hp
    exfalso
    unfold terminalD at hq
    split at hq
    · rename_i h'; exact h1 _ _ _ h'
    · rename_i h'
      split at hq
      · rename_i ht
        rw [if_pos (h2 _ _ _ _ h' ht)] at hq
        cases hq
        exact hcalm.not_report
      · cases hq; exact hcalm.not_panic
    · cases hq; exact hcalm.not_panic
  | @stored f body arg x o s _ hst ih =>
    intro hP hb id results hr hx c hc
    rcases hc with hc | ⟨hne, rfl⟩
    · exact ih hP hb id results hr hx c (.inl hc)
    · rcases (fine hP hb).stored hforeign hst with h | h | h | h
      · exact ih hP hb id results hr hx _ (.inl h)
      · exact .inl h
      · exact .inr (.inr (.inl h))
      · exact .inr (.inr (.inr h))
  | @storedExpr f body arg e o s _ hst ih =>
    intro hP hb id results hr he c hc
    rcases hc with hc | ⟨hne, rfl⟩
    · exact ih hP hb id results hr he c (.inl hc)
    · rcases (fine hP hb).stored hforeign hst with h | h | h | h
      · exact ih hP hb id results hr he _ (.inl h)
      · exact .inl h
      · exact .inr (.inr (.inl h))
      · exact .inr (.inr (.inr h))
  | @storedCall f body arg id fn args o s _ hst ih =>
    intro hP hb hcall q hq hp c hc
    rcases hc with hc | ⟨hne, rfl⟩
    · exact ih hP hb hcall q hq hp c (.inl hc)
    · rcases (fine hP hb).stored hforeign hst with h | h | h | h
      · exact ih hP hb hcall q hq hp _ (.inl h)
      · exact .inl h
      · exact .inr (.inr (.inl h))
      · exact .inr (.inr (.inr h))
  | @derefsExpr f body arg e o hd =>
    intro hP hb id results hr he c hc
    exact absurd hd (fine hP hb).supported.derefs
  | @derefsCall f body arg id fn args o hd =>
    intro hP hb hcall q hq hp c hc
    exact absurd hd (fine hP hb).supported.derefs
  | @conversion f body arg id fn args et s hconv hty =>
    intro hP hb hcall q hq hp c hc
    have hF := fine hP hb
    obtain ⟨hcallee, hnd, hspec, hsame⟩ := hF.parsed.conversions _ _ _ hcall hconv
    have hcodes : ∀ c, c ∈ extractErrorCodesFromTypeConversion env fn ↔ c ∈ et.codes := by
      intro c
      unfold extractErrorCodesFromTypeConversion
      rw [show env.getErrorTypeForError (env.typeOf fn.id) = some et from hty]
      simp [CodeSet.mem_ofSlice]
    obtain ⟨ctor, depth, -, -, hcase⟩ := hF.called hq hp
    rcases hcase with ⟨o, S, h1, -⟩ | ⟨-, -, h3, h4⟩ | ⟨-, h2, h3⟩
    · rw [hcallee] at h1; cases h1
    · rcases hc with hc | ⟨hne, -⟩
      · exact .inr (.inl (h4 _ c ((hcodes c).2 hc)))
      · rcases hF.supported.conversions _ _ _ _ hcall hconv hty with h' | h'
        · refine absurd (List.eq_nil_iff_forall_not_mem.2 fun c hc => ?_) h3
          rw [hcodes, h'] at hc; cases hc
        · exact absurd h' hne
    · have hnil : et.codes = [] := List.eq_nil_iff_forall_not_mem.2 fun c hc => by
        have := (hcodes c).2 hc
        rw [h2 hcallee] at this; cases this
      rcases h3 with ⟨g, hg, -⟩ | ⟨i, x, h4, h5, h6, h7⟩ | ⟨i, x, p, h4, h5, h6, h7, -⟩
      · exact absurd ⟨g, hg⟩ hnd
      · rcases hc with hc | ⟨hne, rfl⟩
        · rw [hnil] at hc; cases hc
        · obtain ⟨fd, hfd⟩ := Option.ne_none_iff_exists'.1 hne
          obtain ⟨et', het', -, hfield⟩ := affector_inv h7
          have : et' = et := by
            rw [show (Node.call id fn args).id = id from rfl, hsame, hty] at het'
            cases het'; rfl
          subst this
          have := (hfield fd hfd).1
          simp [findFieldInit, findFieldInitIn] at this
      · exact absurd (hspec x ⟨i, h4, h5, h7⟩) h6
  | @untaggedConversion f body arg id fn args o hconv hty =>
    intro hP hb hcall q hq hp c hc
    have hF := fine hP hb
    obtain ⟨hcallee, hnd, hspec, hsame⟩ := hF.parsed.conversions _ _ _ hcall hconv
    have hcodes : extractErrorCodesFromTypeConversion env fn = [] := by
      unfold extractErrorCodesFromTypeConversion
      rw [show env.getErrorTypeForError (env.typeOf fn.id) = none from hty]
    obtain ⟨ctor, depth, -, -, hcase⟩ := hF.called hq hp
    rcases hcase with ⟨o, S, h1, -⟩ | ⟨-, -, h3, -⟩ | ⟨-, -, h3⟩
    · rw [hcallee] at h1; cases h1
    · exact absurd hcodes h3
    · rcases h3 with ⟨g, hg, -⟩ | ⟨i, x, h4, h5, h6, h7⟩ | ⟨i, x, p, h4, h5, h6, h7, -⟩
      · exact absurd ⟨g, hg⟩ hnd
      · obtain ⟨et', het', -⟩ := affector_inv h7
        rw [show (Node.call id fn args).id = id from rfl, hsame, hty] at het'
        cases het'
      · exact absurd (hspec x ⟨i, h4, h5, h7⟩) h6
  | @trusted f body arg id fn args q' S a o hconv hq' harg hdecl =>
    intro hP hb hcall q hq hp c hc
    have hF := fine hP hb
    obtain ⟨ctor, depth, hctor, hsil, hcase⟩ := hF.called hq hp
    rcases hcase with ⟨o', S', h1, h2, h3⟩ | ⟨hnt, -⟩ | ⟨hnt, -⟩
    · rw [hq'.1] at h1
      cases h1
      rw [hq'.2] at h2
      cases h2
      rcases hpromise _ _ _ _ hq'.2 hdecl c hc with h' | h' | ⟨hct, rfl⟩
      · exact .inl h'
      · exact .inr (.inl (h3 _ _ (.inl h')))
      · obtain ⟨p, hcp⟩ := Option.ne_none_iff_exists'.1 hct
        have ht := harg p hcp
        rcases hF.argument hcall hq'.1 hcp hctor hsil ht with h' | h' | h' | h'
        · exact .inl h'
        · exact .inr (.inl (h3 _ _ (.inr h')))
        · exact .inr (.inr (.inl (h' _)))
        · exact .inr (.inr (.inr h'))
    · exact absurd ⟨_, _, hq'⟩ hnt
    · exact absurd ⟨_, _, hq'⟩ hnt
  | @own f body arg id fn args g a o hconv hnt hdef ha _ ih =>
    intro hP hb hcall q hq hp c hc
    have hF := fine hP hb
    obtain ⟨ctor, depth, hctor, hsil, hcase⟩ := hF.called hq hp
    rcases hcase with ⟨o', S', h1, h2, h3⟩ | ⟨-, h2, h3, -⟩ | ⟨-, -, h3⟩
    · exact absurd ⟨o', S', h1, h2⟩ hnt
    · exact absurd (hF.supported.callees _ _ _ hcall hconv h2) h3
    · rcases h3 with ⟨g', hg, hcalls, hy⟩ | ⟨i, x, h4, h5, h6, h7⟩ | ⟨i, x, p, h4, h5, h6, h7, -⟩
      · cases Defined.unique hdef hg
        rcases ih (hclosed f g hP hcalls) c hc with h' | h' | ⟨h', rfl⟩
        · exact .inl h'
        · exact .inr (.inl (hy _ _ (.inl h')))
        · obtain ⟨hdecl, p, hcp, hip⟩ := ctor_declared h'
          have hcallee := (hF.parsed.callees _ _ _ hcall hconv).2 g hdef hdecl
          rcases hF.argument hcall hcallee hcp hctor hsil (ha p hip) with h' | h' | h' | h'
          · exact .inl h'
          · exact .inr (.inl (hy _ _ (.inr h')))
          · exact .inr (.inr (.inl (h' _)))
          · exact .inr (.inr (.inr h'))
      · exfalso
        rcases hdef with ⟨i', o', hfn, hi, hd⟩ | ⟨i', hfn, hi, hd⟩ | ⟨sid, x', sel, recv, so, hfn, -⟩ | ⟨lid, type, b, hfn⟩ <;>
          (rw [h4] at hfn; cases hfn) <;> rw [h5] at hi <;> cases hi
        rw [h6] at hd; cases hd
      · exfalso
        rcases hdef with ⟨i', o', hfn, hi, hd⟩ | ⟨i', hfn, hi, hd⟩ | ⟨sid, x', sel, recv, so, hfn, -⟩ | ⟨lid, type, b, hfn⟩ <;>
          (rw [h4] at hfn; cases hfn) <;> rw [h5] at hi <;> cases hi
        exact h7 _ hd
  | @throughVar f body arg id fn args x o hconv hnt hv _ ih =>
    intro hP hb hcall q hq hp c hc
    have hF := fine hP hb
    obtain ⟨ctor, depth, hctor, hsil, hcase⟩ := hF.called hq hp
    obtain ⟨i, hfn, hix, hnf⟩ := hv
    rcases hcase with ⟨o', S', h1, h2, h3⟩ | ⟨-, h2, h3, -⟩ | ⟨-, -, h3⟩
    · exact absurd ⟨o', S', h1, h2⟩ hnt
    · exact absurd (hF.supported.callees _ _ _ hcall hconv h2) h3
    · rcases h3 with ⟨g', hg, -⟩ | ⟨i', x', h4, h5, h6, h7⟩ | ⟨i', x', p, h4, h5, h6, h7, h8, h9, h10⟩
      · exfalso
        rcases hg with ⟨i', o', hfn', hi, hd⟩ | ⟨i', hfn', hi, hd⟩ | ⟨sid, x', sel, recv, so, hfn', -⟩ | ⟨lid, type, b, hfn'⟩ <;>
          (rw [hfn] at hfn'; cases hfn') <;> rw [hix] at hi <;> cases hi
        exact hnf _ hd
      · rw [hfn] at h4
        cases h4
        rw [hix] at h5
        cases h5
        exact absurd h6 ((hF.parsed.callees _ _ _ hcall hconv).1 x ⟨i, hfn, hix, hnf⟩)
      · rw [hfn] at h4
        cases h4
        rw [hix] at h5
        cases h5
        have hloc := (hF.lambdas hcall hfn hix h8 h9).1
        have htr : Tracked env (env.func f) body none [] i x :=
          .start hix (hF.parsed.nilCalled _ _ _ _ _ hcall hfn hix) hloc (by simp)
        rcases ih hP hb id fn args i hcall hfn htr depth p h8 h9 c hc with h' | h'
        · exact .inl h'
        · exact .inr (.inl (h10 _ _ h'))
  | @unknownCallee f body arg id fn args o hconv hnt hnd hnv =>
    intro hP hb hcall q hq hp c hc
    have hF := fine hP hb
    obtain ⟨ctor, depth, hctor, hsil, hcase⟩ := hF.called hq hp
    exfalso
    rcases hcase with ⟨o', S', h1, h2, h3⟩ | ⟨-, h2, h3, -⟩ | ⟨-, -, h3⟩
    · exact hnt ⟨o', S', h1, h2⟩
    · exact h3 (hF.supported.callees _ _ _ hcall hconv h2)
    · rcases h3 with ⟨g', hg, -⟩ | ⟨i', x', h4, h5, h6, h7⟩ | ⟨i', x', p, h4, h5, h6, h7, h8, h9, h10⟩
      · exact hnd ⟨g', hg⟩
      · exact hnv ⟨x', i', h4, h5, by rw [h6]; simp⟩
      · exact hnv ⟨x', i', h4, h5, h7⟩
  | @fnOutside f body x o hn =>
    intro hP hb id fn args i hc hfn htr
    exact absurd (tracked_declared htr) hn
  | @fnWild f body x o hw =>
    intro hP hb id fn args i hc hfn htr
    exact absurd hw ((fine hP hb).supported.called _ _ _ _ _ hc hfn htr)
  | @fnDestructured f body x d o hd =>
    intro hP hb id fn args i hc hfn htr depth p hp hpart c hmay
    obtain ⟨x₀, hx₀⟩ := tracked_obj htr
    exact absurd hd ((((fine hP hb).lambdas hc hfn hx₀ hp hpart).2 x htr).1 d)
  | @fnCopied f body x e j y o hs hv _ ih =>
    intro hP hb id fn args i hc hfn htr depth p hp hpart c hmay
    have hF := fine hP hb
    obtain ⟨x₀, hx₀⟩ := tracked_obj htr
    have hloc := ((hF.lambdas hc hfn hx₀ hp hpart).2 x htr).2.1 e j y hs hv
    exact ih hP hb id fn args i hc hfn (.step htr hs hv (hF.parsed.nilVars _ _ _ _ hs hv) hloc (by simp)) depth p hp hpart c hmay
  | @fnAssigned f body x e o hs hnv _ ih =>
    intro hP hb id fn args i hc hfn htr depth p hp hpart c hmay
    have hF := fine hP hb
    obtain ⟨x₀, hx₀⟩ := tracked_obj htr
    obtain ⟨p', k1, k2, k3⟩ := ((hF.lambdas hc hfn hx₀ hp hpart).2 x htr).2.2 e hs hnv
    exact (ih hP hb id fn args i x hc hfn htr hs hnv depth p' k1 k2 c hmay).imp (fun h => h) (k3 _ _)
  | @applyTrusted f body e q S a o hden hq hdecl =>
    intro hP hb id fn args i x hc hfn htr hs hnv depth p hp hpart c hm
    have hF := fine hP hb
    rcases hF.applied hp hpart (hF.parsed.functions _ _ _ _ _ _ hc hfn htr hs hnv).1 with ⟨_, _, _, _, h', -⟩ | ⟨h1, h2⟩
    · simp [Denotes, h'] at hden
    · rcases hpromise _ _ _ _ hq hdecl c hm with h' | h' | ⟨h', -⟩
      · exact .inl h'
      · rcases h2 with ⟨o', S', h3, h4, h5⟩ | ⟨h3, -⟩
        · rw [hden] at h3
          cases h3
          rw [hq] at h4
          cases h4
          exact .inr (h5 _ _ h')
        · exact absurd ⟨q, S, hden, hq⟩ h3
      · exact absurd (h1 q hden) h'
  | @applyOwn f body e g a o hnt hdef _ ih =>
    intro hP hb id fn args i x hc hfn htr hs hnv depth p hp hpart c hm
    have hF := fine hP hb
    obtain ⟨hvar, hobj⟩ := hF.parsed.functions _ _ _ _ _ _ hc hfn htr hs hnv
    rcases hF.applied hp hpart hvar with ⟨lid, g', type, b, h', rfl⟩ | ⟨h1, h2⟩
    · have hg : g' = g := Defined.unique (.inr (.inr (.inr ⟨_, _, _, h'⟩))) hdef
      subst hg
      rcases ih (hclosed f g' hP (hpart.target (by simp [Plan.targets]))) c hm with h'' | h'' | ⟨h'', -⟩
      · exact .inl h''
      · exact .inr h''
      · have := hobj g' hdef (ctor_declared h'').1
        simp [Denotes, h'] at this
    · rcases h2 with ⟨o', S', h3, h4, -⟩ | ⟨-, g', h3, h4, h5⟩
      · exact absurd ⟨o', S', h3, h4⟩ hnt
      · cases Defined.unique hdef h3
        rcases ih (hclosed f g hP h4) c hm with h'' | h'' | ⟨h'', -⟩
        · exact .inl h''
        · exact .inr (h5 _ _ h'')
        · obtain ⟨hdecl, p', hcp, -⟩ := ctor_declared h''
          have := h1 _ (hobj g hdef hdecl)
          rw [hcp] at this
          cases this
  | @applyUnknown f body e o hnt hnd =>
    intro hP hb id fn args i x hc hfn htr hs hnv depth p hp hpart c hm
    have hF := fine hP hb
    exfalso
    rcases hF.applied hp hpart (hF.parsed.functions _ _ _ _ _ _ hc hfn htr hs hnv).1 with ⟨_, g, _, _, h', -⟩ | ⟨h1, h2⟩
    · exact hnd ⟨g, .inr (.inr (.inr ⟨_, _, _, h'⟩))⟩
    · rcases h2 with ⟨o', S', h3, h4, -⟩ | ⟨-, g', h3, -⟩
      · exact hnt ⟨o', S', h3, h4⟩
      · exact hnd ⟨g', h3⟩

end Runtime
end Serum
