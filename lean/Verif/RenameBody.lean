import Verif.Rename

/-! # Renaming variables: bodies of functions -/

namespace Serum
namespace Rename
open Analyse

/-- The same plan, apart from names of variables in diagnostics. -/
inductive PlanRel (ρ : Renaming) : BodyPlan → BodyPlan → Prop where
  | codes {s} : PlanRel ρ (.codes s) (.codes s)
  | report {d d'} : DiagRel ρ d d' → PlanRel ρ (.report d) (.report d')
  | panic {l} : PlanRel ρ (.panic l) (.panic l)
  | call {g} : PlanRel ρ (.call g) (.call g)
  | visit {g} : PlanRel ρ (.visit g) (.visit g)
  | union {a a' b b'} : PlanRel ρ a a' → PlanRel ρ b b' → PlanRel ρ (.union a b) (.union a' b')
  | minus {a a' s} : PlanRel ρ a a' → PlanRel ρ (.minus a s) (.minus a' s)

variable {ρ : Renaming} {env : Env} {f : FnId}

theorem PlanRel.at {n : NodeId} {m : Msg} : PlanRel ρ (.report ⟨n, m⟩) (.report ⟨n, m⟩) := .report (.refl _)

theorem unions_rel {l l' : List BodyPlan} (h : Pairwise₂ (PlanRel ρ) l l') : PlanRel ρ (Plan.unions l) (Plan.unions l') := by
  induction h with
  | nil => exact .codes
  | cons h _ ih => exact .union h ih

theorem reports_rel {l l' : List Diag} (h : Pairwise₂ (DiagRel ρ) l l') : PlanRel ρ (reports l) (reports l') :=
  unions_rel (h.map fun _ _ => .report)

theorem founds_rel {x x' : Founds} (h : FoundRel ρ x x') : PlanRel ρ (founds x) (founds x') := by
  unfold founds; rw [h.1]; exact .union (reports_rel h.2) .codes

theorem foundCode_rel {x x' : Found} (h : FoundRel ρ x x') : PlanRel ρ (foundCode x) (foundCode x') := by
  unfold foundCode; rw [h.1]; exact .union (reports_rel h.2) .codes

theorem lift_rel {α β : Type} {r : α → β → Prop} {x : Except Stop α} {y : Except Stop β} {k : α → Except Stop BodyPlan} {k' : β → Except Stop BodyPlan}
    (h : ERel r x y) (hk : ∀ a b, r a b → ERel (PlanRel ρ) (k a) (k' b)) : ERel (PlanRel ρ) (lift x k) (lift y k') := by
  cases h with
  | ok h => exact hk _ _ h
  | error => rename_i e; cases e <;> first | exact .ok .panic | exact .error

/-- The same plan for function values. -/
def CallRel (ρ : Renaming) (c c' : Node → Option Object → Except Stop BodyPlan) : Prop :=
  ∀ n o, ERel (PlanRel ρ) (c n o) (c' (n.rename ρ) o)

section
variable (hρ : ρ.Valid)
include hρ

theorem lambda_rename {c c' : Node → Option Object → Except Stop BodyPlan} (hc : CallRel ρ c c') {n n' : GoString} (hn : ρ.Shown n n') (e : Node) :
    ERel (PlanRel ρ) (lambdaAssignment env n c e) (lambdaAssignment (env.rename ρ) n' c' (e.rename ρ)) := by
  unfold lambdaAssignment
  rw [rename_unparen]
  cases e.unparen with
  | funcLit id g t b => exact .ok .visit
  | ident i =>
    have := hc (.ident i) (env.uses i.id)
    simp only [Node.rename] at this ⊢
    rw [ident_id hρ]
    exact this
  | selector id x sel => exact hc (.selector id x sel) _
  | keyValue id k v =>
    obtain ⟨k', hk⟩ := rename_keyValue (ρ := ρ) id k v
    rw [hk]
    exact .ok (.report ⟨rfl, .lambdaUnsupported hn⟩)
  | _ => exact .ok (.report ⟨rfl, .lambdaUnsupported hn⟩)

theorem lambdas_rename {c c' : Node → Option Object → Except Stop BodyPlan} (hc : CallRel ρ c c') {n n' : GoString} (hn : ρ.Shown n n') (es : List Node) :
    ERel (PlanRel ρ) (lambdaAssignments env n c es) (lambdaAssignments (env.rename ρ) n' c' (Node.renameList ρ es)) := by
  induction es with
  | nil => exact .ok .codes
  | cons e es ih =>
    exact (lambda_rename hρ hc hn e).bind fun _ _ h => ih.bind fun _ _ h' => .ok (.union h h')

theorem allLambdas_rename (body : List Node) (n : Nat) {c c' : Node → Option Object → Except Stop BodyPlan} (hc : CallRel ρ c c') {i j : Ident}
    (hi : Alike ρ i j) :
    ERel (PlanRel ρ) (allAssignedLambdas env f body n c i) (allAssignedLambdas (env.rename ρ) f (Node.renameStmts ρ body) n c' j) := by
  unfold allAssignedLambdas
  refine lift_rel (run_rename hρ body none n [] hi) fun t t' h => ?_
  rw [h.expressions]
  refine (lambdas_rename hρ hc hi.shown t.expressions).bind fun _ _ hp => .ok (.union (reports_rel ?_) hp)
  exact Pairwise₂.append (h.outOfScope.map fun x y hx => ⟨hx.id, .refl⟩)
    (h.destructs.map fun x y hx => ⟨by rw [hx.source, rename_id hρ], .lambdaDestructured hx.target.shown⟩)

/-- The same function called. -/
inductive CalledRel (ρ : Renaming) : BodyPlan ⊕ Option FnId → BodyPlan ⊕ Option FnId → Prop where
  | inl {p p'} : PlanRel ρ p p' → CalledRel ρ (.inl p) (.inl p')
  | inr {g} : CalledRel ρ (.inr g) (.inr g)

/-- The arguments of a call. -/
def renameCall (ρ : Renaming) (c : Option (NodeId × List Node)) : Option (NodeId × List Node) := c.map fun x => (x.1, Node.renameList ρ x.2)

theorem called_rename {l l' : Ident → Except Stop BodyPlan} (hl : ∀ i j, Alike ρ i j → ERel (PlanRel ρ) (l i) (l' j)) (fn : Node)
    (c : Option (NodeId × List Node)) :
    ERel (CalledRel ρ) (calledFunction env f l fn c) (calledFunction (env.rename ρ) f l' (fn.rename ρ) (renameCall ρ c)) := by
  have h1 : (env.rename ρ).functions = env.functions := rfl
  have h2 : (env.rename ρ).pkgName = env.pkgName := rfl
  have h3 : (env.rename ρ).selection = env.selection := rfl
  have h4 : (env.rename ρ).searchMethod = env.searchMethod := rfl
  unfold calledFunction
  rw [rename_unparen, h1, h2, h3, h4]
  cases fn.unparen with
  | ident i =>
    have ha := alike hρ i
    simp only [Node.rename]
    rw [ha.obj]
    cases ho : i.obj with
    | none =>
      dsimp only
      rw [ha.free ho, ha.id]
      cases env.functions i.name with
      | none => exact .ok (.inl .at)
      | some g => exact .ok .inr
    | some o =>
      dsimp only
      rw [object_rename]
      unfold ObjInfo.rename
      cases (env.object o).decl with
      | funcDecl g => exact .ok .inr
      | typeSpec =>
        cases c with
        | none => exact .ok (.inl .codes)
        | some c =>
          have := affector_rename hρ (env := env) (f := f) (.call c.1 fn c.2)
          exact .ok (.inl (founds_rel this))
      | valueSpec _ _ => exact (hl _ _ ha).bind fun _ _ h => .ok (.inl h)
      | other => exact (hl _ _ ha).bind fun _ _ h => .ok (.inl h)
  | selector id x sel =>
    simp only [Node.rename]
    rw [rename_unparen]
    cases x.unparen with
    | ident t =>
      simp only [Node.rename, ident_id hρ]
      cases env.pkgName t.id with
      | some name => exact .ok (.inl .at)
      | none =>
        dsimp only
        cases env.selection id with
        | none => exact .ok (.inl .panic)
        | some r => exact .ok .inr
    | keyValue id' k v =>
      obtain ⟨k', hk⟩ := rename_keyValue (ρ := ρ) id' k v
      rw [hk]
      dsimp only
      cases env.selection id with
      | none => exact .ok (.inl .panic)
      | some r => exact .ok .inr
    | _ =>
      simp only [Node.rename]
      cases env.selection id with
      | none => exact .ok (.inl .panic)
      | some r => exact .ok .inr
  | funcLit id g t b => exact .ok .inr
  | keyValue id k v =>
    obtain ⟨k', hk⟩ := rename_keyValue (ρ := ρ) id k v
    rw [hk]
    exact .ok (.inl .at)
  | _ => exact .ok (.inl .at)

theorem functionCall_rename {l l' : Ident → Except Stop BodyPlan} (hl : ∀ i j, Alike ρ i j → ERel (PlanRel ρ) (l i) (l' j)) (fn : Node)
    (callee : Option Object) (c : Option (NodeId × List Node)) :
    ERel (PlanRel ρ) (functionCall env f l fn callee c) (functionCall (env.rename ρ) f l' (fn.rename ρ) callee (renameCall ρ c)) := by
  have h1 : (env.rename ρ).facts = env.facts := rfl
  have h2 : (renameCall ρ c).isSome = c.isSome := by cases c <;> rfl
  have h3 : (renameCall ρ c).map Prod.snd = (c.map Prod.snd).map (Node.renameList ρ) := by cases c <;> rfl
  unfold functionCall
  rw [rename_id hρ, h3]
  refine lift_rel (constructorCall_rename hρ fn.id callee _) fun x x' hx => ?_
  rw [h1]
  cases callee.bind env.facts.codes with
  | some s => exact .ok (.union (foundCode_rel hx) .codes)
  | none =>
    dsimp only
    rw [h2, conversion_rename hρ]
    refine .ite (fun _ => .ok (.union (foundCode_rel hx) .codes)) fun _ => ?_
    refine (called_rename hρ hl fn c).bind fun a b hab => ?_
    cases hab with
    | inl h => exact .ok (.union (reports_rel hx.2) h)
    | inr =>
      rename_i g
      cases g with
      | some g => exact .ok (.union (foundCode_rel hx) .call)
      | none => exact .ok (.union (foundCode_rel hx) .at)

theorem call_rename (body : List Node) (t : Nat) : ∀ (n : Nat) (fn : Node) (callee : Option Object) (c : Option (NodeId × List Node)),
    ERel (PlanRel ρ) (call env f body t n fn callee c) (call (env.rename ρ) f (Node.renameStmts ρ body) t n (fn.rename ρ) callee (renameCall ρ c)) := by
  intro n
  induction n with
  | zero => intro fn callee c; exact .error
  | succ n ih =>
    intro fn callee c
    unfold call
    exact functionCall_rename hρ (fun i j hi => allLambdas_rename hρ body t (fun n o => ih n o none) hi) fn callee c

theorem callExpression_rename (body : List Node) (n : Nat) (id : NodeId) (fn : Node) (args : List Node) :
    ERel (PlanRel ρ) (callExpression env f body n id fn args)
      (callExpression (env.rename ρ) f (Node.renameStmts ρ body) n id (fn.rename ρ) (Node.renameList ρ args)) :=
  call_rename hρ body n n fn (env.callee id) (some (id, args))

omit hρ in
/-- The same plan and the same variables visited. -/
def ThreadRel (ρ : Renaming) (a b : Threaded) : Prop := PlanRel ρ a.1 b.1 ∧ b.2 = a.2

omit hρ in
theorem keep_rel (v : List ObjId) {x y : Except Stop BodyPlan} (h : ERel (PlanRel ρ) x y) : ERel (ThreadRel ρ) (keep v x) (keep v y) := by
  cases h with
  | ok h => exact .ok ⟨h, rfl⟩
  | error => exact .error

omit hρ in
/-- Looking at variables in the same way. -/
def TrackRel (ρ : Renaming) (t t' : List ObjId → Ident → Except Stop Threaded) : Prop :=
  ∀ v i j, Alike ρ i j → ERel (ThreadRel ρ) (t v i) (t' v j)

theorem expression_rename (body : List Node) (n : Nat) {t t' : List ObjId → Ident → Except Stop Threaded} (ht : TrackRel ρ t t') (v : List ObjId)
    (e : Node) : ERel (ThreadRel ρ) (expression env f body n t v e)
      (expression (env.rename ρ) f (Node.renameStmts ρ body) n t' v (e.rename ρ)) := by
  unfold expression
  rw [rename_unparen]
  cases e.unparen with
  | call id fn args => exact keep_rel v (callExpression_rename hρ body n id fn args)
  | ident i => exact ht v i _ (alike hρ i)
  | unary id a x =>
    simp only [Node.rename]
    have : (env.rename ρ).implError ((env.rename ρ).typeOf id) = env.implError (env.typeOf id) := rfl
    rw [this]
    refine .ite (fun _ => ?_) fun _ => .ok ⟨.at, rfl⟩
    rw [rename_unparen]
    have ha := affector_rename hρ (env := env) (f := f) (.unary id a x)
    cases x.unparen with
    | ident i => exact ht v i _ (alike hρ i)
    | keyValue id k v =>
      obtain ⟨k', hk⟩ := rename_keyValue (ρ := ρ) id k v
      rw [hk]
      exact .ok ⟨founds_rel ha, rfl⟩
    | _ => exact .ok ⟨founds_rel ha, rfl⟩
  | compositeLit id es => exact .ok ⟨founds_rel (affector_rename hρ (.compositeLit id es)), rfl⟩
  | basicLit id => exact .ok ⟨founds_rel (affector_rename hρ (.basicLit id)), rfl⟩
  | selector id x sel => exact ht v sel sel (.refl sel)
  | typeAssert id x t => cases t <;> exact .ok ⟨.at, rfl⟩
  | index id x y => exact .ok ⟨.at, rfl⟩
  | keyValue id k v =>
    obtain ⟨k', hk⟩ := rename_keyValue (ρ := ρ) id k v
    rw [hk]
    exact .ok ⟨.at, rfl⟩
  | _ => exact .ok ⟨.at, rfl⟩

omit hρ in
/-- Looking at expressions in the same way. -/
def ExprRel (ρ : Renaming) (x x' : List ObjId → Node → Except Stop Threaded) : Prop := ∀ v e, ERel (ThreadRel ρ) (x v e) (x' v (e.rename ρ))

omit hρ in
theorem expressions_rename {x x' : List ObjId → Node → Except Stop Threaded} (hx : ExprRel ρ x x') : ∀ (es : List Node) (v : List ObjId),
    ERel (ThreadRel ρ) (expressions x v es) (expressions x' v (Node.renameList ρ es)) := by
  intro es
  induction es with
  | nil => intro v; exact .ok ⟨.codes, rfl⟩
  | cons e es ih =>
    intro v
    refine (hx v e).bind fun a b hab => ?_
    obtain ⟨p, v'⟩ := a
    obtain ⟨p', v''⟩ := b
    obtain ⟨hp, rfl⟩ := hab
    exact (ih _).bind fun a b hab => .ok ⟨.union hp hab.1, hab.2⟩

theorem destruct_rename (body : List Node) (n : Nat) {x x' : List ObjId → Node → Except Stop Threaded} (hx : ExprRel ρ x x') (v : List ObjId)
    {d d' : Destruct} (hd : DestrRel ρ d d') :
    ERel (ThreadRel ρ) (destruct env f body n x v d) (destruct (env.rename ρ) f (Node.renameStmts ρ body) n x' v d') := by
  unfold destruct
  rw [hd.source, rename_unparen, hd.position]
  cases d.source.unparen with
  | typeAssert id y t => exact hx v y
  | call id fn args =>
    simp only [Node.rename]
    rw [rename_id hρ]
    have : (env.rename ρ).typeOf = env.typeOf := rfl
    rw [this]
    cases env.typeOf fn.id with
    | signature k =>
      refine .ite (fun _ => .ok ⟨.report ⟨hd.target.id, .refl⟩, rfl⟩) fun _ => ?_
      exact keep_rel v (callExpression_rename hρ body n id fn args)
    | _ => exact .ok ⟨.panic, rfl⟩
  | keyValue id k v =>
    obtain ⟨k', hk⟩ := rename_keyValue (ρ := ρ) id k v
    rw [hk]
    exact .ok ⟨.panic, rfl⟩
  | _ => exact .ok ⟨.panic, rfl⟩

theorem destructs_rename (body : List Node) (n : Nat) {x x' : List ObjId → Node → Except Stop Threaded} (hx : ExprRel ρ x x')
    {ds ds' : List Destruct} (hd : Pairwise₂ (DestrRel ρ) ds ds') : ∀ v : List ObjId,
    ERel (ThreadRel ρ) (destructs env f body n x v ds) (destructs (env.rename ρ) f (Node.renameStmts ρ body) n x' v ds') := by
  induction hd with
  | nil => intro v; exact .ok ⟨.codes, rfl⟩
  | cons hd _ ih =>
    intro v
    refine (destruct_rename hρ body n hx v hd).bind fun a b hab => ?_
    obtain ⟨p, v'⟩ := a
    obtain ⟨p', v''⟩ := b
    obtain ⟨hp, rfl⟩ := hab
    exact (ih _).bind fun a b hab => .ok ⟨.union hp hab.1, hab.2⟩

theorem identTaint_rename (body : List Node) (n : Nat) : ∀ k,
    TrackRel ρ (identTaint env f body n k) (identTaint (env.rename ρ) f (Node.renameStmts ρ body) n k) := by
  intro k
  induction k with
  | zero => intro v i j _; exact .error
  | succ k ih =>
    intro v i j hi
    unfold identTaint
    have h := run_rename hρ (env := env) (f := f) body none n v hi
    generalize Taint.run env (env.func f) body none n v i = x at h
    generalize Taint.run (env.rename ρ) _ _ none n v j = y at h
    cases h with
    | error =>
      rename_i e
      cases e <;> first | exact .ok ⟨.panic, rfl⟩ | exact .error
    | ok h =>
      rename_i t t'
      dsimp only
      rw [h.expressions, h.visited]
      have hx : ExprRel ρ (expression env f body n (identTaint env f body n k))
          (expression (env.rename ρ) f (Node.renameStmts ρ body) n (identTaint (env.rename ρ) f (Node.renameStmts ρ body) n k)) :=
        fun v e => expression_rename hρ body n ih v e
      refine (expressions_rename hx t.expressions t.visited).bind fun a b hab => ?_
      obtain ⟨p, v'⟩ := a
      obtain ⟨p', v''⟩ := b
      obtain ⟨hp, rfl⟩ := hab
      refine (destructs_rename hρ body n hx h.destructs _).bind fun a b hab => .ok ⟨.union (reports_rel ?_) (.union hp hab.1), hab.2⟩
      exact h.outOfScope.map fun x y hx => ⟨hx.id, .refl⟩

omit hρ in
theorem result_rename (type : FuncType) (rs : List Node) :
    resultExpression (type.rename ρ) (Node.renameList ρ rs) = (resultExpression type rs).map (Node.rename ρ) := by
  cases rs with
  | nil =>
    simp only [Node.renameList, resultExpression, FuncType.rename]
    cases type.results with
    | none => rfl
    | some fields =>
      simp only [Option.map_some, List.getLast?_map]
      cases fields.getLast? with
      | none => rfl
      | some g =>
        simp only [Option.map_some, Field.rename, List.getLast?_map]
        cases g.names.getLast? <;> rfl
  | cons r rs =>
    simp only [Node.renameList, resultExpression, Except.map, renameList_eq]
    congr 1
    have : Node.rename ρ r :: rs.map (Node.rename ρ) = (r :: rs).map (Node.rename ρ) := rfl
    simp only [this, List.getLast_map]

theorem return_rename (body : List Node) (n : Nat) (v : List ObjId) (rs : List Node) :
    ERel (ThreadRel ρ) (returnStmt env f body n v rs) (returnStmt (env.rename ρ) f (Node.renameStmts ρ body) n v (Node.renameList ρ rs)) := by
  unfold returnStmt
  have : resultExpression ((env.rename ρ).func f).type (Node.renameList ρ rs) = (resultExpression (env.func f).type rs).map (Node.rename ρ) := by
    rw [func_rename]; exact result_rename _ _
  rw [this]
  cases resultExpression (env.func f).type rs with
  | error l => exact .ok ⟨.panic, rfl⟩
  | ok e => exact expression_rename hρ body n (identTaint_rename hρ body n n) v e

theorem annotated_rename (body : List Node) (n : Nat) (v : List ObjId) (id : NodeId) (rs : List Node) :
    ERel (ThreadRel ρ) (annotatedReturn env f body n v id rs)
      (annotatedReturn (env.rename ρ) f (Node.renameStmts ρ body) n v id (Node.renameList ρ rs)) := by
  unfold annotatedReturn
  have : (env.rename ρ).comments = env.comments := rfl
  rw [this]
  rcases getReturnStmtAnnotations (env.comments id) with ⟨a, ds⟩
  have hd : PlanRel ρ (reports (ds.map fun d => ⟨id, .annotation d⟩)) (reports (ds.map fun d => ⟨id, .annotation d⟩)) :=
    reports_rel (diags_refl _)
  cases a with
  | none => exact (return_rename hρ body n v rs).bind fun a b hab => .ok ⟨.union hd hab.1, hab.2⟩
  | some a =>
    dsimp only
    refine .ite (fun _ => .ok ⟨.union hd .codes, rfl⟩) fun _ => ?_
    exact (return_rename hρ body n v rs).bind fun a b hab => .ok ⟨.union hd (.union (.minus hab.1) .codes), hab.2⟩

theorem returns_rename (body : List Node) (n : Nat) {ns ns' : List Node} (hn : InspRel ρ ns ns') : ∀ v : List ObjId,
    ERel (ThreadRel ρ) (returnStmts env f body n v ns) (returnStmts (env.rename ρ) f (Node.renameStmts ρ body) n v ns') := by
  induction hn with
  | nil => intro v; exact .ok ⟨.codes, rfl⟩
  | @skip m ns ns' hq _ ih =>
    intro v
    cases m <;> first | exact hq.elim | exact ih v
  | @cons m m' ns ns' hr _ ih =>
    intro v
    cases hr with
    | ident => exact ih v
    | same =>
      cases m with
      | ret id rs =>
        refine (annotated_rename hρ body n v id rs).bind fun a b hab => ?_
        obtain ⟨p, v'⟩ := a
        obtain ⟨p', v''⟩ := b
        obtain ⟨hp, rfl⟩ := hab
        exact (ih _).bind fun a b hab => .ok ⟨.union hp hab.1, hab.2⟩
      | keyValue id k v' =>
        obtain ⟨k', hk⟩ := rename_keyValue (ρ := ρ) id k v'
        rw [hk]
        exact ih v
      | _ => exact ih v

omit hρ in
theorem target_rename (l : Node) : fieldTarget (l.rename ρ) = (fieldTarget l).map fun x => (ρ.ident x.1, x.2) := by
  cases l with
  | selector id x sel =>
    cases x with
    | keyValue id k v =>
      obtain ⟨k', hk⟩ := rename_keyValue (ρ := ρ) id k v
      simp only [Node.rename]
      rw [hk]; rfl
    | _ => rfl
  | keyValue id k v =>
    obtain ⟨k', hk⟩ := rename_keyValue (ρ := ρ) id k v
    rw [hk]; rfl
  | _ => rfl

theorem resolve_rename (et : Option ErrorType) (x : Ident) : resolveType (env.rename ρ) et (ρ.ident x) = resolveType env et x := by
  unfold resolveType; rw [ident_id hρ]; rfl

theorem field_rename (o : ObjId) (n : Nat) (rs : List Node) : ∀ (ls : List Node) (et : Option ErrorType) (i : Nat),
    PlanRel ρ (fieldAssignment env f o n rs et i ls)
      (fieldAssignment (env.rename ρ) f o n (Node.renameList ρ rs) et i (Node.renameList ρ ls)) := by
  intro ls
  induction ls with
  | nil => intro et i; exact .codes
  | cons l ls ih =>
    intro et i
    rw [Node.renameList]
    unfold fieldAssignment
    rw [target_rename]
    cases fieldTarget l with
    | none => exact ih _ _
    | some x =>
      obtain ⟨x, sel⟩ := x
      simp only [Option.map_some, ident_obj hρ, resolve_rename hρ, rename_length]
      split
      · exact ih _ _
      · cases resolveType env et x with
        | none => exact ih _ _
        | some t =>
          dsimp only
          cases t.field with
          | none =>
            dsimp only
            split
            · exact ih _ _
            · exact .panic
          | some field =>
            dsimp only
            split
            · exact ih _ _
            · split
              · cases rs with
                | nil => exact .panic
                | cons r rs =>
                  refine .union (.report ⟨rename_id hρ r, .refl⟩) ?_
                  exact ih _ _
              · have : (Node.renameList ρ rs)[i]? = rs[i]?.map (Node.rename ρ) := by rw [renameList_eq, List.getElem?_map]
                rw [this]
                cases rs[i]? with
                | none => exact .panic
                | some r => exact .union (foundCode_rel (string_rename hρ r)) (ih _ _)

theorem fields_rename (o : ObjId) {ns ns' : List Node} (hn : InspRel ρ ns ns') :
    PlanRel ρ (fieldAssignments env f o ns) (fieldAssignments (env.rename ρ) f o ns') := by
  induction hn with
  | nil => exact .codes
  | @skip m ns ns' hq _ ih => cases m <;> first | exact hq.elim | exact ih
  | @cons m m' ns ns' hr _ ih =>
    cases hr with
    | ident => exact ih
    | same =>
      cases m with
      | assign id l r =>
        refine .union ?_ ih
        rw [rename_length]
        exact field_rename hρ o _ r l none 0
      | keyValue id k v' =>
        obtain ⟨k', hk⟩ := rename_keyValue (ρ := ρ) id k v'
        rw [hk]
        exact ih
      | _ => exact ih

omit hρ in
theorem intoFields_rename (n : Node) : intoFields (n.rename ρ) = intoFields n := by
  cases n with
  | keyValue id k v => obtain ⟨k', hk⟩ := rename_keyValue (ρ := ρ) id k v; rw [hk]; rfl
  | _ => rfl

omit hρ in
theorem intoReturns_rename (n : Node) : intoReturns (n.rename ρ) = intoReturns n := by
  cases n with
  | keyValue id k v => obtain ⟨k', hk⟩ := rename_keyValue (ρ := ρ) id k v; rw [hk]; rfl
  | _ => rfl

theorem assigned_rename (body : List Node) (v : List ObjId) :
    PlanRel ρ (assignedFields env f body v) (assignedFields (env.rename ρ) f (Node.renameStmts ρ body) v) := by
  unfold assignedFields
  refine unions_rel ?_
  have : (env.rename ρ).fieldOrder f v = env.fieldOrder f v := rfl
  rw [this]
  exact (Pairwise₂.refl (R := fun a b => b = a) (fun _ => rfl) _).map fun a b hab => by
    subst hab; exact fields_rename hρ _ (inspectList_rel hρ intoFields_rename body)

/-- The body of a function is treated in the same way. -/
theorem plan_rename (n : Nat) (f : FnId) : PlanRel ρ (plan env n f) (plan (env.rename ρ) n f) := by
  have : ERel (PlanRel ρ) (bodyPlan env n f) (bodyPlan (env.rename ρ) n f) := by
    unfold bodyPlan
    rw [func_rename]
    have : ((env.func f).rename ρ).body = (env.func f).body.map (Node.renameStmts ρ) := rfl
    rw [this]
    cases (env.func f).body with
    | none => exact .ok .panic
    | some body =>
      refine lift_rel (constructor_rename hρ body n) fun x x' hx => ?_
      refine (returns_rename hρ body n (inspectList_rel hρ intoReturns_rename body) []).bind fun a b hab => ?_
      obtain ⟨p, v'⟩ := a
      obtain ⟨p', v''⟩ := b
      obtain ⟨hp, rfl⟩ := hab
      exact .ok (.union (founds_rel hx) (.union hp (assigned_rename hρ body _)))
  unfold plan
  generalize bodyPlan env n f = x at this
  generalize bodyPlan (env.rename ρ) n f = y at this
  cases this with
  | ok h => exact h
  | error => exact .panic

end
end Rename
end Serum
