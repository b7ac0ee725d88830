import Verif.RunPlan
import Verif.Spec.CallGraphSpec

/-! # How bodies depend on the codes recorded for other functions

The codes recorded for called functions appear in what is found for a body, and influence nothing else. -/

namespace Serum

/-- The environment with other facts about the codes of functions. -/
def Env.withCodes (env : Env) (K : Object → Option CodeSet) : Env := { env with facts := { env.facts with codes := K } }

/-- The same steps, where sets of codes are related by `R`. -/
inductive Plan.Like {N D : Type} (R : CodeSet → CodeSet → Prop) : Plan N D → Plan N D → Prop where
  | codes {a b} : R a b → Like R (.codes a) (.codes b)
  | report (d) : Like R (.report d) (.report d)
  | panic (s) : Like R (.panic s) (.panic s)
  | call (g) : Like R (.call g) (.call g)
  | visit (g) : Like R (.visit g) (.visit g)
  | union {a b a' b'} : Like R a a' → Like R b b' → Like R (.union a b) (.union a' b')
  | minus {a a'} (s) : Like R a a' → Like R (.minus a s) (.minus a' s)

namespace Plan
variable {N D : Type} {R : CodeSet → CodeSet → Prop}

theorem Like.refl (hR : ∀ a, R a a) : ∀ p : Plan N D, Like R p p
  | .codes a => .codes (hR a)
  | .report d => .report d
  | .panic s => .panic s
  | .call g => .call g
  | .visit g => .visit g
  | .union a b => .union (Like.refl hR a) (Like.refl hR b)
  | .minus a s => .minus s (Like.refl hR a)

theorem Like.targets {p q : Plan N D} (h : Like R p q) : q.targets = p.targets := by
  induction h with
  | union _ _ h1 h2 => simp only [Plan.targets, h1, h2]
  | minus _ _ h => simp only [Plan.targets, h]
  | _ => rfl

theorem Like.visits {p q : Plan N D} (h : Like R p q) : q.visits = p.visits := by
  induction h with
  | union _ _ h1 h2 => simp only [Plan.visits, h1, h2]
  | minus _ _ h => simp only [Plan.visits, h]
  | _ => rfl

theorem Like.reports {p q : Plan N D} (h : Like R p q) : q.reports = p.reports := by
  induction h with
  | union _ _ h1 h2 => simp only [Plan.reports, h1, h2]
  | minus _ _ h => simp only [Plan.reports, h]
  | _ => rfl

theorem Like.yields {p q : Plan N D} {c : GoString} (h : Like (fun a b => c ∈ a → c ∈ b) p q) {ρ : N → GoString → Prop} (hy : p.Yields ρ c) :
    q.Yields ρ c := by
  induction h with
  | codes h => exact h hy
  | report => exact hy
  | panic => exact hy
  | call => exact hy
  | visit => exact hy
  | union _ _ h1 h2 => exact hy.imp h1 h2
  | minus _ _ h => exact ⟨h hy.1, hy.2⟩

end Plan

namespace Analyse
variable (env : Env) (K : Object → Option CodeSet)
set_option smartUnfolding false in
private theorem k_ctor : extractErrorCodesFromConstructor (env.withCodes K) = extractErrorCodesFromConstructor env := rfl
set_option smartUnfolding false in
private theorem k_taint : Taint.run (env.withCodes K) = Taint.run env := rfl
set_option smartUnfolding false in
private theorem k_aff : extractErrorCodesFromAffector (env.withCodes K) = extractErrorCodesFromAffector env := rfl
set_option smartUnfolding false in
private theorem k_conv : extractErrorCodesFromTypeConversion (env.withCodes K) = extractErrorCodesFromTypeConversion env := rfl
set_option smartUnfolding false in
private theorem k_cc : extractErrorCodeFromConstructorCall (env.withCodes K) = extractErrorCodeFromConstructorCall env := rfl
set_option smartUnfolding false in
private theorem k_lam : lambdaAssignment (env.withCodes K) = lambdaAssignment env := rfl
set_option smartUnfolding false in
private theorem k_called : calledFunction (env.withCodes K) = calledFunction env := rfl
set_option smartUnfolding false in
private theorem k_assf : assignedFields (env.withCodes K) = assignedFields env := rfl

variable {env K} {R : CodeSet → CodeSet → Prop}

/-- Both finish alike, or both stop in the same way. -/
def Alike (R : CodeSet → CodeSet → Prop) : Except Stop BodyPlan → Except Stop BodyPlan → Prop
  | .ok p, .ok q => p.Like R q
  | .error e, .error e' => e = e'
  | _, _ => False

/-- … and visit the same variables. -/
def AlikeT (R : CodeSet → CodeSet → Prop) : Except Stop Threaded → Except Stop Threaded → Prop
  | .ok p, .ok q => p.1.Like R q.1 ∧ p.2 = q.2
  | .error e, .error e' => e = e'
  | _, _ => False

variable (hR : ∀ a, R a a)
include hR

theorem Alike.refl : ∀ x, Alike R x x
  | .ok p => Plan.Like.refl hR p
  | .error _ => rfl

theorem AlikeT.refl : ∀ x, AlikeT R x x
  | .ok p => ⟨Plan.Like.refl hR p.1, rfl⟩
  | .error _ => rfl

omit hR in
theorem alike_cases {x y : Except Stop BodyPlan} (h : Alike R x y) : (∃ p q, x = .ok p ∧ y = .ok q ∧ p.Like R q) ∨ ∃ e, x = .error e ∧ y = .error e := by
  cases x <;> cases y <;> simp_all [Alike]

omit hR in
theorem alikeT_cases {x y : Except Stop Threaded} (h : AlikeT R x y) :
    (∃ p q v, x = .ok (p, v) ∧ y = .ok (q, v) ∧ p.Like R q) ∨ ∃ e, x = .error e ∧ y = .error e := by
  cases x with
  | error e => cases y with
    | error e' => exact .inr ⟨e, rfl, by rw [show e = e' from h]⟩
    | ok q => exact absurd h id
  | ok p => cases y with
    | error e' => exact absurd h id
    | ok q => obtain ⟨p, v⟩ := p; obtain ⟨q, w⟩ := q; obtain ⟨h1, h2⟩ := h; cases h2; exact .inl ⟨p, q, v, rfl, rfl, h1⟩

private theorem r_lam {c c' : Node → Option Object → Except Stop BodyPlan} (hc : ∀ n o, Alike R (c n o) (c' n o)) (e : Node) :
    Alike R (lambdaAssignment env name c e) (lambdaAssignment (env.withCodes K) name c' e) := by
  rw [k_lam]
  unfold lambdaAssignment
  split
  · exact .visit _
  · exact hc _ _
  · exact hc _ _
  · exact .report _

private theorem r_lams {c c' : Node → Option Object → Except Stop BodyPlan} (hc : ∀ n o, Alike R (c n o) (c' n o)) :
    ∀ es, Alike R (lambdaAssignments env name c es) (lambdaAssignments (env.withCodes K) name c' es)
  | [] => .codes (hR _)
  | e :: es => by
    unfold lambdaAssignments
    rcases alike_cases (r_lam hR hc (env := env) (K := K) e) with ⟨p, q, h1, h2, h3⟩ | ⟨e', h1, h2⟩ <;> rw [h1, h2]
    · rcases alike_cases (r_lams hc es) with ⟨p', q', k1, k2, k3⟩ | ⟨e', k1, k2⟩ <;> rw [k1, k2]
      · exact .union h3 k3
      · exact rfl
    · exact rfl

private theorem r_all {c c' : Node → Option Object → Except Stop BodyPlan} (hc : ∀ n o, Alike R (c n o) (c' n o)) (f b n i) :
    Alike R (allAssignedLambdas env f b n c i) (allAssignedLambdas (env.withCodes K) f b n c' i) := by
  unfold allAssignedLambdas
  rw [k_taint]
  show Alike R (lift (Taint.run env (env.func f) b none n [] i) _) (lift (Taint.run env (env.func f) b none n [] i) _)
  unfold lift
  split
  · rename_i t _
    dsimp only
    rcases alike_cases (r_lams hR hc (env := env) (K := K) t.expressions) with ⟨p, q, h1, h2, h3⟩ | ⟨e', h1, h2⟩ <;> rw [h1, h2]
    · exact .union (Plan.Like.refl hR _) h3
    · exact rfl
  · exact .panic _
  · exact rfl

private theorem r_called {l l' : Ident → Except Stop BodyPlan} (hl : ∀ i, Alike R (l i) (l' i)) (f fn c) :
    (∃ g, calledFunction env f l fn c = .ok (.inr g) ∧ calledFunction (env.withCodes K) f l' fn c = .ok (.inr g)) ∨
    (∃ p q, calledFunction env f l fn c = .ok (.inl p) ∧ calledFunction (env.withCodes K) f l' fn c = .ok (.inl q) ∧ p.Like R q) ∨
    ∃ e, calledFunction env f l fn c = .error e ∧ calledFunction (env.withCodes K) f l' fn c = .error e := by
  rw [k_called]
  unfold calledFunction
  have same : ∀ p : BodyPlan, (∃ g, (Except.ok (.inl p) : Except Stop (BodyPlan ⊕ Option FnId)) = .ok (.inr g) ∧
        (Except.ok (.inl p) : Except Stop (BodyPlan ⊕ Option FnId)) = .ok (.inr g)) ∨
      (∃ p' q, (Except.ok (.inl p) : Except Stop (BodyPlan ⊕ Option FnId)) = .ok (.inl p') ∧
        (Except.ok (.inl p) : Except Stop (BodyPlan ⊕ Option FnId)) = .ok (.inl q) ∧ p'.Like R q) ∨
      ∃ e, (Except.ok (.inl p) : Except Stop (BodyPlan ⊕ Option FnId)) = .error e ∧
        (Except.ok (.inl p) : Except Stop (BodyPlan ⊕ Option FnId)) = .error e :=
    fun p => .inr (.inl ⟨p, p, rfl, rfl, Plan.Like.refl hR p⟩)
  split
  · split
    · split
      · exact .inl ⟨_, rfl, rfl⟩
      · exact same _
    · split
      · exact .inl ⟨_, rfl, rfl⟩
      · split
        · exact same _
        · exact same _
      · rcases alike_cases (hl _) with ⟨p, q, h1, h2, h3⟩ | ⟨e', h1, h2⟩ <;> rw [h1, h2]
        · exact .inr (.inl ⟨_, _, rfl, rfl, h3⟩)
        · exact .inr (.inr ⟨_, rfl, rfl⟩)
  · dsimp only
    split
    · exact same _
    · split
      · exact same _
      · exact .inl ⟨_, rfl, rfl⟩
  · exact .inl ⟨_, rfl, rfl⟩
  · exact same _

/-- For every function, nothing is recorded in both cases, or related sets are. -/
def Related (R : CodeSet → CodeSet → Prop) (k k' : Object → Option CodeSet) : Prop :=
  ∀ o, (k o = none ∧ k' o = none) ∨ ∃ a b, k o = some a ∧ k' o = some b ∧ R a b

variable (hK : Related R env.facts.codes K)
include hK

private theorem r_fc {l l' : Ident → Except Stop BodyPlan} (hl : ∀ i, Alike R (l i) (l' i)) (f fn callee c) :
    Alike R (functionCall env f l fn callee c) (functionCall (env.withCodes K) f l' fn callee c) := by
  unfold functionCall
  rw [k_cc, k_conv]
  unfold lift
  split
  · rename_i ctor _
    have hcodes : (callee.bind env.facts.codes = none ∧ callee.bind (env.withCodes K).facts.codes = none) ∨
        ∃ a b, callee.bind env.facts.codes = some a ∧ callee.bind (env.withCodes K).facts.codes = some b ∧ R a b := by
      cases callee with
      | none => exact .inl ⟨rfl, rfl⟩
      | some o => exact hK o
    rcases hcodes with ⟨h1, h2⟩ | ⟨a, b, h1, h2, h3⟩ <;> rw [h1, h2] <;> dsimp only
    · generalize (if c.isSome = true ∧ callee = none then extractErrorCodesFromTypeConversion env fn else []) = cc
      by_cases hcc : cc ≠ []
      · rw [if_pos hcc, if_pos hcc]
        exact .union (Plan.Like.refl hR _) (.codes (hR _))
      · rw [if_neg hcc, if_neg hcc]
        rcases r_called hR hl (env := env) (K := K) f fn c with ⟨g, k1, k2⟩ | ⟨p, q, k1, k2, k3⟩ | ⟨e, k1, k2⟩ <;> rw [k1, k2]
        · cases g with
          | none => exact .union (Plan.Like.refl hR _) (.report _)
          | some g => exact .union (Plan.Like.refl hR _) (.call _)
        · exact .union (Plan.Like.refl hR _) k3
        · exact rfl
    · exact .union (Plan.Like.refl hR _) (.codes h3)
  · exact .panic _
  · exact rfl

private theorem r_call (f b t) : ∀ n x y z, Alike R (call env f b t n x y z) (call (env.withCodes K) f b t n x y z)
  | 0, _, _, _ => rfl
  | n + 1, x, y, z => r_fc hR hK (fun i => r_all hR (fun n' o => r_call f b t n n' o none) f b t i) f x y z

private theorem r_ce (f b n i x a) : Alike R (callExpression env f b n i x a) (callExpression (env.withCodes K) f b n i x a) :=
  r_call hR hK f b n n x _ _

omit hR hK in
private theorem r_keep {x y : Except Stop BodyPlan} (h : Alike R x y) (v) : AlikeT R (keep v x) (keep v y) := by
  rcases alike_cases h with ⟨p, q, h1, h2, h3⟩ | ⟨e', h1, h2⟩ <;> rw [h1, h2]
  · exact ⟨h3, rfl⟩
  · exact rfl

private theorem r_expr {t t' : List ObjId → Ident → Except Stop Threaded} (ht : ∀ v i, AlikeT R (t v i) (t' v i)) (f b n v e) :
    AlikeT R (expression env f b n t v e) (expression (env.withCodes K) f b n t' v e) := by
  unfold expression
  rw [k_aff]
  split
  · exact r_keep (r_ce hR hK f b n _ _ _) v
  · exact ht _ _
  · show AlikeT R (if _ && env.implError (env.typeOf _) then _ else _) (if _ && env.implError (env.typeOf _) then _ else _)
    split
    · split
      · exact ht _ _
      · exact AlikeT.refl hR _
    · exact AlikeT.refl hR _
  · exact AlikeT.refl hR _
  · exact AlikeT.refl hR _
  · exact ht _ _
  all_goals exact AlikeT.refl hR _

omit hK in
private theorem r_exprs {x x' : List ObjId → Node → Except Stop Threaded} (hx : ∀ v e, AlikeT R (x v e) (x' v e)) :
    ∀ v es, AlikeT R (expressions x v es) (expressions x' v es)
  | v, [] => AlikeT.refl hR _
  | v, e :: es => by
    unfold expressions
    rcases alikeT_cases (hx v e) with ⟨p, q, w, h1, h2, h3⟩ | ⟨e', h1, h2⟩ <;> rw [h1, h2]
    · rcases alikeT_cases (r_exprs hx w es) with ⟨p', q', u, k1, k2, k3⟩ | ⟨e', k1, k2⟩ <;> simp only [bind, Except.bind, k1, k2]
      · exact ⟨.union h3 k3, rfl⟩
      · exact rfl
    · exact rfl

private theorem r_destruct {x x' : List ObjId → Node → Except Stop Threaded} (hx : ∀ v e, AlikeT R (x v e) (x' v e)) (f b n v d) :
    AlikeT R (destruct env f b n x v d) (destruct (env.withCodes K) f b n x' v d) := by
  unfold destruct
  split
  · exact hx _ _
  · rename_i id fn args _
    show AlikeT R (match env.typeOf fn.id with | .signature n => _ | _ => _) (match env.typeOf fn.id with | .signature n => _ | _ => _)
    split
    · show AlikeT R (if d.position + 1 ≠ env.sigResults _ then _ else _) (if d.position + 1 ≠ env.sigResults _ then _ else _)
      split
      · exact AlikeT.refl hR _
      · exact r_keep (r_ce hR hK f b n _ _ _) v
    · exact AlikeT.refl hR _
  · exact AlikeT.refl hR _

private theorem r_destructs {x x' : List ObjId → Node → Except Stop Threaded} (hx : ∀ v e, AlikeT R (x v e) (x' v e)) (f b n) :
    ∀ v ds, AlikeT R (destructs env f b n x v ds) (destructs (env.withCodes K) f b n x' v ds)
  | v, [] => AlikeT.refl hR _
  | v, d :: ds => by
    unfold destructs
    rcases alikeT_cases (r_destruct hR hK hx f b n v d) with ⟨p, q, w, h1, h2, h3⟩ | ⟨e', h1, h2⟩ <;> rw [h1, h2]
    · rcases alikeT_cases (r_destructs hx f b n w ds) with ⟨p', q', u, k1, k2, k3⟩ | ⟨e', k1, k2⟩ <;> simp only [bind, Except.bind, k1, k2]
      · exact ⟨.union h3 k3, rfl⟩
      · exact rfl
    · exact rfl

private theorem r_ident (f b n) : ∀ k v i, AlikeT R (identTaint env f b n k v i) (identTaint (env.withCodes K) f b n k v i)
  | 0, _, _ => rfl
  | k + 1, v, i => by
    unfold identTaint
    rw [k_taint]
    show AlikeT R (match Taint.run env (env.func f) b none n v i with | .error (.panic loc) => _ | .error e => _ | .ok t => _)
      (match Taint.run env (env.func f) b none n v i with | .error (.panic loc) => _ | .error e => _ | .ok t => _)
    split
    · exact AlikeT.refl hR _
    · exact rfl
    · rename_i t _
      have hx := fun v e => r_expr hR hK (fun v i => r_ident f b n k v i) f b n v e
      rcases alikeT_cases (r_exprs hR hx t.visited t.expressions) with ⟨p, q, w, h1, h2, h3⟩ | ⟨e', h1, h2⟩ <;> simp only [bind, Except.bind, h1, h2]
      · rcases alikeT_cases (r_destructs hR hK hx f b n w t.destructs) with ⟨p', q', u, k1, k2, k3⟩ | ⟨e', k1, k2⟩ <;> simp only [k1, k2]
        · exact ⟨.union (Plan.Like.refl hR _) (.union h3 k3), rfl⟩
        · exact rfl
      · exact rfl

private theorem r_ret (f b n v rs) : AlikeT R (returnStmt env f b n v rs) (returnStmt (env.withCodes K) f b n v rs) := by
  unfold returnStmt
  show AlikeT R (match resultExpression (env.func f).type rs with | .error loc => _ | .ok e => _)
    (match resultExpression (env.func f).type rs with | .error loc => _ | .ok e => _)
  split
  · exact AlikeT.refl hR _
  · exact r_expr hR hK (fun v i => r_ident hR hK f b n n v i) f b n v _

private theorem r_ann (f b n v i rs) : AlikeT R (annotatedReturn env f b n v i rs) (annotatedReturn (env.withCodes K) f b n v i rs) := by
  unfold annotatedReturn
  have hc : (env.withCodes K).comments i = env.comments i := rfl
  rw [hc]
  generalize getReturnStmtAnnotations (env.comments i) = an
  obtain ⟨annotation, ds⟩ := an
  dsimp only
  cases annotation <;> dsimp only
  · rcases alikeT_cases (r_ret hR hK f b n v rs) with ⟨p, q, w, h1, h2, h3⟩ | ⟨e', h1, h2⟩ <;> rw [h1, h2]
    · exact ⟨.union (Plan.Like.refl hR _) h3, rfl⟩
    · exact rfl
  · split
    · exact AlikeT.refl hR _
    · rcases alikeT_cases (r_ret hR hK f b n v rs) with ⟨p, q, w, h1, h2, h3⟩ | ⟨e', h1, h2⟩ <;> rw [h1, h2]
      · exact ⟨.union (Plan.Like.refl hR _) (.union (.minus _ h3) (.codes (hR _))), rfl⟩
      · exact rfl

private theorem r_rets (f b n) : ∀ v ns, AlikeT R (returnStmts env f b n v ns) (returnStmts (env.withCodes K) f b n v ns)
  | v, [] => AlikeT.refl hR _
  | v, m :: ns => by
    cases m
    case ret i rs =>
      unfold returnStmts
      rcases alikeT_cases (r_ann hR hK f b n v i rs) with ⟨p, q, w, h1, h2, h3⟩ | ⟨e', h1, h2⟩ <;> rw [h1, h2]
      · rcases alikeT_cases (r_rets f b n w ns) with ⟨p', q', u, k1, k2, k3⟩ | ⟨e', k1, k2⟩ <;> simp only [bind, Except.bind, k1, k2]
        · exact ⟨.union h3 k3, rfl⟩
        · exact rfl
      · exact rfl
    all_goals (unfold returnStmts; exact r_rets f b n v ns)

/-- What is done in a body with other codes of called functions. -/
theorem plan_withCodes (fuel : Nat) (f : FnId) : (plan env fuel f).Like R (plan (env.withCodes K) fuel f) := by
  have key : Alike R (bodyPlan env fuel f) (bodyPlan (env.withCodes K) fuel f) := by
    unfold bodyPlan
    rw [k_ctor]
    show Alike R (match (env.func f).body with | none => _ | some body => _) (match (env.func f).body with | none => _ | some body => _)
    split
    · exact .panic _
    · rename_i body _
      unfold lift
      split
      · rcases alikeT_cases (r_rets hR hK f body fuel [] (Node.inspectList intoReturns body)) with ⟨p, q, w, h1, h2, h3⟩ | ⟨e', h1, h2⟩ <;>
          simp only [bind, Except.bind, h1, h2]
        · exact .union (Plan.Like.refl hR _) (.union h3 (by rw [k_assf]; exact Plan.Like.refl hR _))
        · exact rfl
      · exact .panic _
      · exact rfl
  unfold plan
  rcases alike_cases key with ⟨p, q, h1, h2, h3⟩ | ⟨e', h1, h2⟩ <;> rw [h1, h2]
  · exact h3
  · exact .panic _

end Analyse
end Serum
