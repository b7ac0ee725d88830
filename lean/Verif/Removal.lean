import Verif.RunPlan
import Verif.Spec.CallGraphSpec

/-! # How bodies depend on the functions of the package

If a body does not lead to certain functions, it is understood in the same way without them. -/

namespace Serum

/-- The environment with other functions (by name) and other facts about error constructors, codes of functions and error types. -/
def Env.withFunctions (env : Env) (fn : GoString → Option FnId) (K : Object → Option Nat) (C : Object → Option CodeSet) (E : Object → Option ErrorType) : Env :=
  { env with functions := fn, facts := { env.facts with ctor := K, codes := C, errorType := E } }

/-- The same steps, unless there is a step to one of the functions `gone`. -/
def Plan.Unless {N D : Type} (gone : N → Prop) (p q : Plan N D) : Prop := (∃ z ∈ p.targets, gone z) ∨ q = p

namespace Plan
variable {N D : Type} {gone : N → Prop}

theorem Unless.refl (p : Plan N D) : Unless gone p p := .inr rfl

theorem Unless.union {a b a' b' : Plan N D} (h : Unless gone a a') (h' : Unless gone b b') : Unless gone (.union a b) (.union a' b') := by
  rcases h with ⟨z, h1, h2⟩ | rfl
  · exact .inl ⟨z, List.mem_append_left _ h1, h2⟩
  · rcases h' with ⟨z, h1, h2⟩ | rfl
    · exact .inl ⟨z, List.mem_append_right _ h1, h2⟩
    · exact .inr rfl

theorem Unless.minus {a a' : Plan N D} (s) (h : Unless gone a a') : Unless gone (.minus a s) (.minus a' s) := by
  rcases h with ⟨z, h1, h2⟩ | rfl
  · exact .inl ⟨z, h1, h2⟩
  · exact .inr rfl

theorem Unless.call {g : N} (h : gone g) (q : Plan N D) : Unless gone (.call g) q := .inl ⟨g, List.mem_singleton.2 rfl, h⟩

end Plan

namespace Analyse
variable (env : Env) (fn' : GoString → Option FnId) (K : Object → Option Nat) (C : Object → Option CodeSet) (E : Object → Option ErrorType)
set_option smartUnfolding false in
private theorem k_taint : Taint.run (env.withFunctions fn' K C E) = Taint.run env := rfl
set_option smartUnfolding false in
private theorem k_lam : lambdaAssignment (env.withFunctions fn' K C E) = lambdaAssignment env := rfl

variable {env fn' K C E} {gone : FnId → Prop}

/-- The object is what a name or a call in the source refers to. -/
def Mentioned (env : Env) (o : Object) : Prop :=
  (∃ n, env.callee n = some o) ∨ (∃ n, env.uses n = some o) ∨ ∃ n r, env.selection n = some (r, o)

/-- Only functions `gone` are no longer found by name, all error constructors, declared functions and error types referred to are the same, and so is
whether the function looked at is one. -/
structure Removes (env : Env) (fn' : GoString → Option FnId) (K : Object → Option Nat) (C : Object → Option CodeSet)
    (E : Object → Option ErrorType) (gone : FnId → Prop) (f : FnId) : Prop where
  own : importErrorConstructorFact (env.withFunctions fn' K C E) f = importErrorConstructorFact env f
  functions : ∀ n, fn' n = env.functions n ∨ ∃ g, env.functions n = some g ∧ gone g
  ctor : ∀ o, Mentioned env o → K o = env.facts.ctor o
  codes : ∀ o, Mentioned env o → C o = env.facts.codes o
  types : ∀ n, (env.withFunctions fn' K C E).getErrorTypeForError (env.typeOf n) = env.getErrorTypeForError (env.typeOf n)

/-- Both finish alike, or both stop in the same way. -/
def Aside (gone : FnId → Prop) : Except Stop BodyPlan → Except Stop BodyPlan → Prop
  | .ok p, .ok q => Plan.Unless gone p q
  | .error e, .error e' => e = e'
  | _, _ => False

/-- … and visit the same variables. -/
def AsideT (gone : FnId → Prop) : Except Stop Threaded → Except Stop Threaded → Prop
  | .ok p, .ok q => Plan.Unless gone p.1 q.1 ∧ p.2 = q.2
  | .error e, .error e' => e = e'
  | _, _ => False

theorem Aside.refl : ∀ x, Aside gone x x
  | .ok p => Plan.Unless.refl p
  | .error _ => rfl

theorem AsideT.refl : ∀ x, AsideT gone x x
  | .ok p => ⟨Plan.Unless.refl p.1, rfl⟩
  | .error _ => rfl

theorem aside_cases {x y : Except Stop BodyPlan} (h : Aside gone x y) : (∃ p q, x = .ok p ∧ y = .ok q ∧ Plan.Unless gone p q) ∨ ∃ e, x = .error e ∧ y = .error e := by
  cases x <;> cases y <;> simp_all [Aside]

theorem asideT_cases {x y : Except Stop Threaded} (h : AsideT gone x y) :
    (∃ p q v, x = .ok (p, v) ∧ y = .ok (q, v) ∧ Plan.Unless gone p q) ∨ ∃ e, x = .error e ∧ y = .error e := by
  cases x with
  | error e => cases y with
    | error e' => exact .inr ⟨e, rfl, by rw [show e = e' from h]⟩
    | ok q => exact absurd h id
  | ok p => cases y with
    | error e' => exact absurd h id
    | ok q => obtain ⟨p, v⟩ := p; obtain ⟨q, w⟩ := q; obtain ⟨h1, h2⟩ := h; cases h2; exact .inl ⟨p, q, v, rfl, rfl, h1⟩

private theorem r_lam {c c' : Node → Option Object → Except Stop BodyPlan} (hc : ∀ n o, (∀ x, o = some x → Mentioned env x) → Aside gone (c n o) (c' n o)) (e : Node) :
    Aside gone (lambdaAssignment env name c e) (lambdaAssignment (env.withFunctions fn' K C E) name c' e) := by
  rw [k_lam]
  unfold lambdaAssignment
  split
  · exact .refl _
  · exact hc _ _ fun o ho => .inr (.inl ⟨_, ho⟩)
  · refine hc _ _ fun o ho => ?_
    split at ho
    · rename_i h; cases ho; exact .inr (.inr ⟨_, _, h⟩)
    · exact .inr (.inl ⟨_, ho⟩)
  · exact .refl _

private theorem r_lams {c c' : Node → Option Object → Except Stop BodyPlan} (hc : ∀ n o, (∀ x, o = some x → Mentioned env x) → Aside gone (c n o) (c' n o)) :
    ∀ es, Aside gone (lambdaAssignments env name c es) (lambdaAssignments (env.withFunctions fn' K C E) name c' es)
  | [] => .refl _
  | e :: es => by
    unfold lambdaAssignments
    rcases aside_cases (r_lam  hc (env := env) (K := K) (C := C) (E := E) e) with ⟨p, q, h1, h2, h3⟩ | ⟨e', h1, h2⟩ <;> rw [h1, h2]
    · rcases aside_cases (r_lams hc es) with ⟨p', q', k1, k2, k3⟩ | ⟨e', k1, k2⟩ <;> rw [k1, k2]
      · exact .union h3 k3
      · exact rfl
    · exact rfl

private theorem r_all {c c' : Node → Option Object → Except Stop BodyPlan} (hc : ∀ n o, (∀ x, o = some x → Mentioned env x) → Aside gone (c n o) (c' n o)) (f b n i) :
    Aside gone (allAssignedLambdas env f b n c i) (allAssignedLambdas (env.withFunctions fn' K C E) f b n c' i) := by
  unfold allAssignedLambdas
  rw [k_taint]
  show Aside gone (lift (Taint.run env (env.func f) b none n [] i) _) (lift (Taint.run env (env.func f) b none n [] i) _)
  unfold lift
  split
  · rename_i t _
    dsimp only
    rcases aside_cases (r_lams  hc (env := env) (K := K) (C := C) (E := E) t.expressions) with ⟨p, q, h1, h2, h3⟩ | ⟨e', h1, h2⟩ <;> rw [h1, h2]
    · exact .union (Plan.Unless.refl _) h3
    · exact rfl
  · exact .refl _
  · exact rfl

variable {f : FnId} (hK : Removes env fn' K C E gone f)
include hK

private theorem k_conv : extractErrorCodesFromTypeConversion (env.withFunctions fn' K C E) = extractErrorCodesFromTypeConversion env := by
  funext e
  unfold extractErrorCodesFromTypeConversion
  have ht : (env.withFunctions fn' K C E).getErrorTypeForError ((env.withFunctions fn' K C E).typeOf e.id) =
    env.getErrorTypeForError (env.typeOf e.id) := hK.types e.id
  rw [ht]

private theorem k_string : extractErrorCodeFromStringExpression (env.withFunctions fn' K C E) f = extractErrorCodeFromStringExpression env f := by
  funext e
  unfold extractErrorCodeFromStringExpression checkIfExprIsErrorCodeParam
  rw [hK.own]
  rfl

private theorem k_field : extractFieldErrorCode (env.withFunctions fn' K C E) f = extractFieldErrorCode env f := by
  funext e fld
  unfold extractFieldErrorCode
  rw [k_string hK]

private theorem k_aff : extractErrorCodesFromAffector (env.withFunctions fn' K C E) f = extractErrorCodesFromAffector env f := by
  funext e
  unfold extractErrorCodesFromAffector
  rw [k_field hK]
  have ht : (env.withFunctions fn' K C E).getErrorTypeForError ((env.withFunctions fn' K C E).typeOf e.id) =
    env.getErrorTypeForError (env.typeOf e.id) := hK.types e.id
  rw [ht]
  rfl

private theorem k_fa (o n rhs) : ∀ ls t i, fieldAssignment (env.withFunctions fn' K C E) f o n rhs t i ls = fieldAssignment env f o n rhs t i ls
  | [], _, _ => by unfold fieldAssignment; rfl
  | l :: ls, t, i => by
    unfold fieldAssignment
    have hr : resolveType (env.withFunctions fn' K C E) = resolveType env := by
      funext t x
      cases t with
      | some t => rfl
      | none => exact hK.types x.id
    simp only [k_string hK, hr, k_fa o n rhs ls]

private theorem k_fas (o) : ∀ ns, fieldAssignments (env.withFunctions fn' K C E) f o ns = fieldAssignments env f o ns
  | [] => rfl
  | m :: ns => by
    cases m <;> unfold fieldAssignments <;> simp only [k_fas o ns, k_fa hK]

private theorem k_assf : assignedFields (env.withFunctions fn' K C E) f = assignedFields env f := by
  funext b v
  unfold assignedFields
  have ho : (env.withFunctions fn' K C E).fieldOrder = env.fieldOrder := rfl
  simp only [ho, k_fas hK]

private theorem k_codes : ∀ es, codesOfExpressions (env.withFunctions fn' K C E) f es = codesOfExpressions env f es
  | [] => rfl
  | e :: es => by
    unfold codesOfExpressions
    rw [k_string hK, k_codes es]

private theorem k_ctor : extractErrorCodesFromConstructor (env.withFunctions fn' K C E) f = extractErrorCodesFromConstructor env f := by
  funext b n
  unfold extractErrorCodesFromConstructor
  rw [hK.own, k_taint]
  simp only [k_codes hK]
  rfl

private theorem r_cc {callee : Option Object} (hm : ∀ o, callee = some o → Mentioned env o) (i args) :
    extractErrorCodeFromConstructorCall (env.withFunctions fn' K C E) f i callee args = extractErrorCodeFromConstructorCall env f i callee args := by
  cases callee with
  | none => rfl
  | some o =>
    unfold extractErrorCodeFromConstructorCall
    have : (env.withFunctions fn' K C E).facts.ctor o = env.facts.ctor o := hK.ctor o (hm o rfl)
    dsimp only
    rw [this, k_string hK]

set_option smartUnfolding false in
omit hK in
private theorem k_search : (env.withFunctions fn' K C E).searchMethod = env.searchMethod := rfl

private theorem r_called {l l' : Ident → Except Stop BodyPlan} (hl : ∀ i, Aside gone (l i) (l' i)) (fn c) :
    (∃ g, calledFunction env f l fn c = .ok (.inr g) ∧ calledFunction (env.withFunctions fn' K C E) f l' fn c = .ok (.inr g)) ∨
    (∃ p q, calledFunction env f l fn c = .ok (.inl p) ∧ calledFunction (env.withFunctions fn' K C E) f l' fn c = .ok (.inl q) ∧ Plan.Unless gone p q) ∨
    (∃ e, calledFunction env f l fn c = .error e ∧ calledFunction (env.withFunctions fn' K C E) f l' fn c = .error e) ∨
    ∃ g r, calledFunction env f l fn c = .ok (.inr (some g)) ∧ gone g ∧ calledFunction (env.withFunctions fn' K C E) f l' fn c = .ok r := by
  have eo : ∀ o, (env.withFunctions fn' K C E).object o = env.object o := fun _ => rfl
  have es : (env.withFunctions fn' K C E).selection = env.selection := rfl
  have ep : (env.withFunctions fn' K C E).pkgName = env.pkgName := rfl
  have ef : (env.withFunctions fn' K C E).functions = fn' := rfl
  unfold calledFunction
  simp only [eo, es, ep, ef, k_aff hK, k_search]
  split
  · rename_i i _
    split
    · rcases hK.functions i.name with h | ⟨g, h1, h2⟩
      · rw [h]
        split
        · exact .inl ⟨_, rfl, rfl⟩
        · exact .inr (.inl ⟨_, _, rfl, rfl, .refl _⟩)
      · rw [h1]
        refine .inr (.inr (.inr ⟨g, ?_⟩))
        cases fn' i.name with
        | none => exact ⟨_, rfl, h2, rfl⟩
        | some g' => exact ⟨_, rfl, h2, rfl⟩
    · split
      · exact .inl ⟨_, rfl, rfl⟩
      · split
        · exact .inr (.inl ⟨_, _, rfl, rfl, .refl _⟩)
        · exact .inr (.inl ⟨_, _, rfl, rfl, .refl _⟩)
      · rcases aside_cases (hl i) with ⟨p, q, h1, h2, h3⟩ | ⟨e', h1, h2⟩ <;> rw [h1, h2]
        · exact .inr (.inl ⟨_, _, rfl, rfl, h3⟩)
        · exact .inr (.inr (.inl ⟨_, rfl, rfl⟩))
  · split
    · exact .inr (.inl ⟨_, _, rfl, rfl, .refl _⟩)
    · split
      · exact .inr (.inl ⟨_, _, rfl, rfl, .refl _⟩)
      · exact .inl ⟨_, rfl, rfl⟩
  · exact .inl ⟨_, rfl, rfl⟩
  · exact .inr (.inl ⟨_, _, rfl, rfl, .refl _⟩)

private theorem r_fc {l l' : Ident → Except Stop BodyPlan} (hl : ∀ i, Aside gone (l i) (l' i)) (fn callee c)
    (hm : ∀ o, callee = some o → Mentioned env o) :
    Aside gone (functionCall env f l fn callee c) (functionCall (env.withFunctions fn' K C E) f l' fn callee c) := by
  unfold functionCall
  rw [r_cc hK hm, k_conv hK]
  have ec : callee.bind (env.withFunctions fn' K C E).facts.codes = callee.bind env.facts.codes := by
    cases callee with
    | none => rfl
    | some o => exact hK.codes o (hm o rfl)
  rw [ec]
  unfold lift
  split
  · rename_i ctor _
    cases callee.bind env.facts.codes with
    | some codes => exact .refl _
    | none =>
      dsimp only
      generalize (if c.isSome = true ∧ callee = none then extractErrorCodesFromTypeConversion env fn else []) = cc
      by_cases hcc : cc ≠ []
      · rw [if_pos hcc, if_pos hcc]
        exact .refl _
      · rw [if_neg hcc, if_neg hcc]
        rcases r_called hK hl fn c with ⟨g, k1, k2⟩ | ⟨p, q, k1, k2, k3⟩ | ⟨e, k1, k2⟩ | ⟨g, r, k1, k2, k3⟩
        · rw [k1, k2]
          cases g with
          | none => exact .refl _
          | some g => exact .refl _
        · rw [k1, k2]; exact .union (Plan.Unless.refl _) k3
        · rw [k1, k2]; exact rfl
        · rw [k1, k3]
          have key : ∀ q : BodyPlan, Plan.Unless gone (.union (foundCode ctor) (.call g)) q := fun q =>
            .inl ⟨g, List.mem_append_right _ (List.mem_singleton.2 rfl), k2⟩
          match r with
          | .inl p => exact key _
          | .inr none => exact key _
          | .inr (some g') => exact key _
  · exact .refl _
  · exact rfl

private theorem r_call (b t) : ∀ n x y z, (∀ o, y = some o → Mentioned env o) →
    Aside gone (call env f b t n x y z) (call (env.withFunctions fn' K C E) f b t n x y z)
  | 0, _, _, _, _ => rfl
  | n + 1, x, y, z, hm => r_fc hK (fun i => r_all (fun n' o hm' => r_call b t n n' o none hm') f b t i) x y z hm

private theorem r_ce (b n i x a) : Aside gone (callExpression env f b n i x a) (callExpression (env.withFunctions fn' K C E) f b n i x a) :=
  r_call hK b n n x _ _ fun _ ho => .inl ⟨_, ho⟩

omit hK in
private theorem r_keep {x y : Except Stop BodyPlan} (h : Aside gone x y) (v) : AsideT gone (keep v x) (keep v y) := by
  rcases aside_cases h with ⟨p, q, h1, h2, h3⟩ | ⟨e', h1, h2⟩ <;> rw [h1, h2]
  · exact ⟨h3, rfl⟩
  · exact rfl

private theorem r_expr {t t' : List ObjId → Ident → Except Stop Threaded} (ht : ∀ v i, AsideT gone (t v i) (t' v i)) (b n v e) :
    AsideT gone (expression env f b n t v e) (expression (env.withFunctions fn' K C E) f b n t' v e) := by
  unfold expression
  rw [k_aff hK]
  split
  · exact r_keep (r_ce hK b n _ _ _) v
  · exact ht _ _
  · show AsideT gone (if _ && env.implError (env.typeOf _) then _ else _) (if _ && env.implError (env.typeOf _) then _ else _)
    split
    · split
      · exact ht _ _
      · exact AsideT.refl _
    · exact AsideT.refl _
  · exact AsideT.refl _
  · exact AsideT.refl _
  · exact ht _ _
  all_goals exact AsideT.refl _

omit hK in
private theorem r_exprs {x x' : List ObjId → Node → Except Stop Threaded} (hx : ∀ v e, AsideT gone (x v e) (x' v e)) :
    ∀ v es, AsideT gone (expressions x v es) (expressions x' v es)
  | v, [] => AsideT.refl _
  | v, e :: es => by
    unfold expressions
    rcases asideT_cases (hx v e) with ⟨p, q, w, h1, h2, h3⟩ | ⟨e', h1, h2⟩ <;> rw [h1, h2]
    · rcases asideT_cases (r_exprs hx w es) with ⟨p', q', u, k1, k2, k3⟩ | ⟨e', k1, k2⟩ <;> simp only [bind, Except.bind, k1, k2]
      · exact ⟨.union h3 k3, rfl⟩
      · exact rfl
    · exact rfl

private theorem r_destruct {x x' : List ObjId → Node → Except Stop Threaded} (hx : ∀ v e, AsideT gone (x v e) (x' v e)) (b n v d) :
    AsideT gone (destruct env f b n x v d) (destruct (env.withFunctions fn' K C E) f b n x' v d) := by
  unfold destruct
  split
  · exact hx _ _
  · rename_i id fn args _
    show AsideT gone (match env.typeOf fn.id with | .signature n => _ | _ => _) (match env.typeOf fn.id with | .signature n => _ | _ => _)
    split
    · show AsideT gone (if d.position + 1 ≠ env.sigResults _ then _ else _) (if d.position + 1 ≠ env.sigResults _ then _ else _)
      split
      · exact AsideT.refl _
      · exact r_keep (r_ce hK b n _ _ _) v
    · exact AsideT.refl _
  · exact AsideT.refl _

private theorem r_destructs {x x' : List ObjId → Node → Except Stop Threaded} (hx : ∀ v e, AsideT gone (x v e) (x' v e)) (b n) :
    ∀ v ds, AsideT gone (destructs env f b n x v ds) (destructs (env.withFunctions fn' K C E) f b n x' v ds)
  | v, [] => AsideT.refl _
  | v, d :: ds => by
    unfold destructs
    rcases asideT_cases (r_destruct hK hx b n v d) with ⟨p, q, w, h1, h2, h3⟩ | ⟨e', h1, h2⟩ <;> rw [h1, h2]
    · rcases asideT_cases (r_destructs hx b n w ds) with ⟨p', q', u, k1, k2, k3⟩ | ⟨e', k1, k2⟩ <;> simp only [bind, Except.bind, k1, k2]
      · exact ⟨.union h3 k3, rfl⟩
      · exact rfl
    · exact rfl

private theorem r_ident (b n) : ∀ k v i, AsideT gone (identTaint env f b n k v i) (identTaint (env.withFunctions fn' K C E) f b n k v i)
  | 0, _, _ => rfl
  | k + 1, v, i => by
    unfold identTaint
    rw [k_taint]
    show AsideT gone (match Taint.run env (env.func f) b none n v i with | .error (.panic loc) => _ | .error e => _ | .ok t => _)
      (match Taint.run env (env.func f) b none n v i with | .error (.panic loc) => _ | .error e => _ | .ok t => _)
    split
    · exact AsideT.refl _
    · exact rfl
    · rename_i t _
      have hx := fun v e => r_expr hK (fun v i => r_ident b n k v i) b n v e
      rcases asideT_cases (r_exprs  hx t.visited t.expressions) with ⟨p, q, w, h1, h2, h3⟩ | ⟨e', h1, h2⟩ <;> simp only [bind, Except.bind, h1, h2]
      · rcases asideT_cases (r_destructs hK hx b n w t.destructs) with ⟨p', q', u, k1, k2, k3⟩ | ⟨e', k1, k2⟩ <;> simp only [k1, k2]
        · exact ⟨.union (Plan.Unless.refl _) (.union h3 k3), rfl⟩
        · exact rfl
      · exact rfl

private theorem r_ret (b n v rs) : AsideT gone (returnStmt env f b n v rs) (returnStmt (env.withFunctions fn' K C E) f b n v rs) := by
  unfold returnStmt
  show AsideT gone (match resultExpression (env.func f).type rs with | .error loc => _ | .ok e => _)
    (match resultExpression (env.func f).type rs with | .error loc => _ | .ok e => _)
  split
  · exact AsideT.refl _
  · exact r_expr hK (fun v i => r_ident hK b n n v i) b n v _

private theorem r_ann (b n v i rs) : AsideT gone (annotatedReturn env f b n v i rs) (annotatedReturn (env.withFunctions fn' K C E) f b n v i rs) := by
  unfold annotatedReturn
  have hc : (env.withFunctions fn' K C E).comments i = env.comments i := rfl
  rw [hc]
  generalize getReturnStmtAnnotations (env.comments i) = an
  obtain ⟨annotation, ds⟩ := an
  dsimp only
  cases annotation <;> dsimp only
  · rcases asideT_cases (r_ret hK b n v rs) with ⟨p, q, w, h1, h2, h3⟩ | ⟨e', h1, h2⟩ <;> rw [h1, h2]
    · exact ⟨.union (Plan.Unless.refl _) h3, rfl⟩
    · exact rfl
  · split
    · exact AsideT.refl _
    · rcases asideT_cases (r_ret hK b n v rs) with ⟨p, q, w, h1, h2, h3⟩ | ⟨e', h1, h2⟩ <;> rw [h1, h2]
      · exact ⟨.union (Plan.Unless.refl _) (.union (.minus _ h3) (.refl _)), rfl⟩
      · exact rfl

private theorem r_rets (b n) : ∀ v ns, AsideT gone (returnStmts env f b n v ns) (returnStmts (env.withFunctions fn' K C E) f b n v ns)
  | v, [] => AsideT.refl _
  | v, m :: ns => by
    cases m
    case ret i rs =>
      unfold returnStmts
      rcases asideT_cases (r_ann hK b n v i rs) with ⟨p, q, w, h1, h2, h3⟩ | ⟨e', h1, h2⟩ <;> rw [h1, h2]
      · rcases asideT_cases (r_rets b n w ns) with ⟨p', q', u, k1, k2, k3⟩ | ⟨e', k1, k2⟩ <;> simp only [bind, Except.bind, k1, k2]
        · exact ⟨.union h3 k3, rfl⟩
        · exact rfl
      · exact rfl
    all_goals (unfold returnStmts; exact r_rets b n v ns)

/-- What is done in a body without some functions. -/
theorem plan_withFunctions (fuel : Nat) : Plan.Unless gone (plan env fuel f) (plan (env.withFunctions fn' K C E) fuel f) := by
  have key : Aside gone (bodyPlan env fuel f) (bodyPlan (env.withFunctions fn' K C E) fuel f) := by
    unfold bodyPlan
    rw [k_ctor hK]
    show Aside gone (match (env.func f).body with | none => _ | some body => _) (match (env.func f).body with | none => _ | some body => _)
    split
    · exact .refl _
    · rename_i body _
      unfold lift
      split
      · rcases asideT_cases (r_rets hK body fuel [] (Node.inspectList intoReturns body)) with ⟨p, q, w, h1, h2, h3⟩ | ⟨e', h1, h2⟩ <;>
          simp only [bind, Except.bind, h1, h2]
        · exact .union (Plan.Unless.refl _) (.union h3 (by rw [k_assf hK]; exact Plan.Unless.refl _))
        · exact rfl
      · exact .refl _
      · exact rfl
  unfold plan
  rcases aside_cases key with ⟨p, q, h1, h2, h3⟩ | ⟨e', h1, h2⟩ <;> rw [h1, h2]
  · exact h3
  · exact .refl _

end Analyse
end Serum
