import Verif.AnalyseBody
import Verif.TaintScope

/-! # Properties shared by all atomic steps of the plan of a function body -/

namespace Serum
namespace Analyse
open Flow Taint

/-- A property of atomic steps that every step of the plan of `f` has, by construction of the steps. -/
structure StepProp (env : Env) (f : FnId) (P : BodyPlan → Prop) : Prop where
  empty : P (.codes [])
  report : ∀ d, d.msg ≠ .errorOutOfScope → P (.report d)
  outOfScope : ∀ body e j, (env.func f).body = some body → Flows env f body e → RefersTo env e j →
    (¬ Inside env (env.func f) j ∨ ∃ o, j.obj = some o ∧ LitParam body o) → P (.report ⟨j.id, .errorOutOfScope⟩)
  panic : ∀ loc, P (.panic loc)
  call : ∀ g, P (.call g)
  visit : ∀ g, P (.visit g)
  code : ∀ e c, (extractErrorCodeFromStringExpression env f e).1 = some c → P (.codes [c])
  affector : ∀ e, P (.codes (extractErrorCodesFromAffector env f e).1)
  conversion : ∀ fn, P (.codes (extractErrorCodesFromTypeConversion env fn))
  fact : ∀ o s, env.facts.codes o = some s → P (.codes s)
  param : ∀ body fuel s, extractErrorCodesFromConstructor env f body fuel = .ok s → P (.codes s.1)
  overwrite : ∀ id a, (getReturnStmtAnnotations (env.comments id)).1 = some a → a.shouldOverwrite = true →
    P (.codes a.overwrite)
  add : ∀ id a, (getReturnStmtAnnotations (env.comments id)).1 = some a → P (.codes a.addCodes)

/-- All atomic steps have the property. -/
def AllSteps (P : BodyPlan → Prop) (p : BodyPlan) : Prop := ∀ l ∈ p.leaves, P l

variable {env : Env} {f : FnId} {P : BodyPlan → Prop} {body : List Node} {fuel : Nat}

theorem AllSteps.one {l : BodyPlan} (h : P l) (hl : l.leaves = [l]) : AllSteps P l := by
  intro l' hl'; rw [hl, List.mem_singleton] at hl'; exact hl' ▸ h

theorem AllSteps.union {p q : BodyPlan} (hp : AllSteps P p) (hq : AllSteps P q) : AllSteps P (.union p q) := by
  intro l hl
  simp only [Plan.leaves, List.mem_append] at hl
  exact hl.elim (hp l) (hq l)

theorem AllSteps.minus {p : BodyPlan} {s : CodeSet} (hp : AllSteps P p) : AllSteps P (.minus p s) := hp

theorem AllSteps.unions {ps : List BodyPlan} (he : P (.codes [])) (h : ∀ p ∈ ps, AllSteps P p) : AllSteps P (Plan.unions ps) := by
  intro l hl
  rw [Plan.unions_leaves] at hl
  rcases hl with rfl | ⟨p, hp, hl⟩
  · exact he
  · exact h p hp l hl

/-- Diagnostics about something else than a returned variable. -/
def Other (ds : List Diag) : Prop := ∀ d ∈ ds, d.msg ≠ .errorOutOfScope

theorem Other.nil : Other [] := by intro d hd; cases hd

theorem Other.append {ds es : List Diag} (h : Other ds) (h' : Other es) : Other (ds ++ es) := by
  intro d hd; exact (List.mem_append.1 hd).elim (h d) (h' d)

theorem other_string (e : Node) : Other (extractErrorCodeFromStringExpression env f e).2 := by
  unfold extractErrorCodeFromStringExpression checkIfExprIsErrorCodeParam
  repeat' split
  all_goals (intro d hd; simp at hd; try (subst hd; simp))

theorem other_affector (e : Node) : Other (extractErrorCodesFromAffector env f e).2 := by
  have hfind : ∀ (fd : ErrorCodeField) (e : Node), Other (findFieldInit fd e).2 := by
    intro fd e
    unfold findFieldInit
    generalize e.id = a
    fun_induction findFieldInitIn fd a e
    all_goals first
      | assumption
      | exact .nil
      | (intro d hd; simp at hd; try (subst hd; simp))
  have hfield : ∀ fd, Other (extractFieldErrorCode env f e fd).2 := by
    intro fd
    unfold extractFieldErrorCode
    split
    · rename_i h; have := hfind fd e; rw [h] at this; exact this
    · rename_i h; have := hfind fd e; rw [h] at this; exact this.append (other_string _)
  unfold extractErrorCodesFromAffector
  split
  · intro d hd; simp at hd; subst hd; simp
  · split
    · intro d hd; simp at hd; subst hd; simp
    · dsimp only
      split
      · exact .nil
      · rename_i fd _
        have := hfield fd
        split <;> (rename_i h; rw [h] at this; exact this)

theorem other_constructor {body : List Node} {fuel : Nat} {s : Founds} (h : extractErrorCodesFromConstructor env f body fuel = .ok s) :
    Other s.2 := by
  have hcodes : ∀ es, Other (codesOfExpressions env f es).2 := by
    intro es
    induction es with
    | nil => exact .nil
    | cons e es ih => exact (other_string e).append ih
  unfold extractErrorCodesFromConstructor at h
  repeat' split at h
  all_goals cases h
  · exact .nil
  · rename_i t _ _ codes ds hc
    refine .append (.append ?_ ?_) (by have := hcodes t.expressions; rw [hc] at this; exact this)
    · intro d hd; obtain ⟨j, -, rfl⟩ := List.mem_map.1 hd; simp
    · intro d hd; obtain ⟨j, -, rfl⟩ := List.mem_map.1 hd; simp

theorem StepProp.reports (h : StepProp env f P) {ds : List Diag} (ho : Other ds) : AllSteps P (reports ds) := by
  intro l hl
  rw [reports_leaves] at hl
  rcases hl with rfl | ⟨d, hd, rfl⟩
  · exact h.empty
  · exact h.report d (ho d hd)

theorem StepProp.foundCode (h : StepProp env f P) (e : Node) :
    AllSteps P (foundCode (extractErrorCodeFromStringExpression env f e)) := by
  refine (h.reports (other_string e)).union (.one ?_ rfl)
  cases hc : (extractErrorCodeFromStringExpression env f e).1 with
  | none => exact h.empty
  | some c => exact h.code e c hc

theorem StepProp.affectorSteps (h : StepProp env f P) (e : Node) :
    AllSteps P (founds (extractErrorCodesFromAffector env f e)) := (h.reports (other_affector e)).union (.one (h.affector e) rfl)

theorem StepProp.lambdaAssignments (h : StepProp env f P) {call : Node → Option Object → Except Stop BodyPlan}
    (hc : ∀ n o p, call n o = .ok p → AllSteps P p) : ∀ (es : List Node) {p : BodyPlan},
    lambdaAssignments env name call es = .ok p → AllSteps P p := by
  intro es
  induction es with
  | nil => intro p hp; simp only [Analyse.lambdaAssignments] at hp; cases hp; exact .one h.empty rfl
  | cons e es ih =>
    intro p hp
    simp only [Analyse.lambdaAssignments, bind, Except.bind] at hp
    split at hp
    · cases hp
    · rename_i a ha
      split at hp
      · cases hp
      · rename_i b hb
        simp only [pure, Except.pure] at hp
        cases hp
        refine .union ?_ (ih hb)
        unfold lambdaAssignment at ha
        split at ha
        · cases ha; exact .one (h.visit _) rfl
        · exact hc _ _ _ ha
        · exact hc _ _ _ ha
        · cases ha; exact .one (h.report _ (by simp)) rfl

theorem StepProp.constructorCall (h : StepProp env f P) {r : NodeId} {callee : Option Object} {args : Option (List Node)}
    {x : Found} (hx : extractErrorCodeFromConstructorCall env f r callee args = .ok x) : AllSteps P (Serum.foundCode x) := by
  have none_ : ∀ ds, Other ds → AllSteps P (Serum.foundCode (none, ds)) := fun ds ho => (h.reports ho).union (.one h.empty rfl)
  unfold extractErrorCodeFromConstructorCall at hx
  repeat' split at hx
  all_goals cases hx
  · exact none_ _ .nil
  · exact none_ _ .nil
  · exact none_ _ (by intro d hd; simp at hd; subst hd; simp)
  · exact h.foundCode _

theorem other_constructorCall {r : NodeId} {callee : Option Object} {args : Option (List Node)}
    {x : Found} (hx : extractErrorCodeFromConstructorCall env f r callee args = .ok x) : Other x.2 := by
  unfold extractErrorCodeFromConstructorCall at hx
  repeat' split at hx
  all_goals cases hx
  · exact .nil
  · exact .nil
  · intro d hd; simp at hd; subst hd; simp
  · exact other_string _

theorem StepProp.callSteps (h : StepProp env f P) : ∀ (n : Nat) (fn : Node) (callee : Option Object)
    (ce : Option (NodeId × List Node)) {p : BodyPlan}, Analyse.call env f body fuel n fn callee ce = .ok p → AllSteps P p := by
  intro n
  induction n with
  | zero => intro _ _ _ p hp; simp [Analyse.call] at hp
  | succ n ih =>
    intro fn callee ce p hp
    unfold Analyse.call functionCall lift at hp
    split at hp
    · rename_i ctor hctor
      have hct := h.constructorCall hctor
      split at hp
      · rename_i codes hcodes
        cases hp
        refine hct.union (.one ?_ rfl)
        cases callee with
        | none => simp at hcodes
        | some o => exact h.fact o _ hcodes
      · dsimp only at hp
        have hconv : P (.codes (if ce.isSome = true ∧ callee = none then extractErrorCodesFromTypeConversion env fn else [])) := by
          split
          · exact h.conversion fn
          · exact h.empty
        generalize (if ce.isSome = true ∧ callee = none then extractErrorCodesFromTypeConversion env fn else []) = cc at hp hconv
        split at hp
        · cases hp; exact hct.union (.one hconv rfl)
        · simp only [bind, Except.bind] at hp
          split at hp
          · cases hp
          · rename_i r hr
            split at hp
            · rename_i q
              simp only [pure, Except.pure] at hp
              cases hp
              refine (h.reports (other_constructorCall hctor)).union ?_
              unfold calledFunction at hr
              split at hr
              · split at hr
                · split at hr
                  · cases hr
                  · cases hr; exact .one (h.report _ (by simp)) rfl
                · split at hr
                  · cases hr
                  · split at hr
                    · cases hr; exact h.affectorSteps _
                    · cases hr; exact .one h.empty rfl
                  · simp only [bind, Except.bind] at hr
                    split at hr
                    · cases hr
                    · rename_i a ha
                      simp only [pure, Except.pure] at hr
                      cases hr
                      unfold allAssignedLambdas lift at ha
                      split at ha
                      · simp only [bind, Except.bind] at ha
                        split at ha
                        · cases ha
                        · rename_i b hb
                          simp only [pure, Except.pure] at ha
                          cases ha
                          refine (h.reports (.append ?_ ?_)).union (h.lambdaAssignments (fun _ _ _ hh => ih _ _ _ hh) _ hb)
                          · intro d hd; obtain ⟨j, -, rfl⟩ := List.mem_map.1 hd; simp
                          · intro d hd; obtain ⟨j, -, rfl⟩ := List.mem_map.1 hd; simp
                      · cases ha; exact .one (h.panic _) rfl
                      · cases ha
              · dsimp only at hr
                split at hr
                · cases hr; exact .one (h.report _ (by simp)) rfl
                · split at hr
                  · cases hr; exact .one (h.panic _) rfl
                  · cases hr
              · cases hr
              · cases hr; exact .one (h.report _ (by simp)) rfl
            · cases hp; exact hct.union (.one (h.call _) rfl)
            · cases hp; exact hct.union (.one (h.report _ (by simp)) rfl)
    · cases hp; exact .one (h.panic _) rfl
    · cases hp

/-- The expression is, up to parentheses, one whose value can become the error. -/
def FlowsUpTo (env : Env) (f : FnId) (body : List Node) (e : Node) : Prop := ∃ e', Flows env f body e' ∧ e.unparen = e'.unparen

theorem FlowsUpTo.of {e : Node} (h : Flows env f body e) : FlowsUpTo env f body e := ⟨e, h, rfl⟩

theorem FlowsUpTo.congr {e : Node} (h : Flows env f body e) : FlowsUpTo env f body e.unparen := ⟨e, h, Node.unparen_unparen _⟩

theorem FlowsUpTo.named {e : Node} (h : FlowsUpTo env f body e) {i : Ident} (hi : RefersTo env e i) : Named env (Flows env f body) i := by
  obtain ⟨e', he', heq⟩ := h
  refine ⟨e', he', ?_⟩
  unfold RefersTo at hi ⊢
  rwa [heq] at hi

theorem StepProp.expression (h : StepProp env f P) {taint : List ObjId → Ident → Except Stop Threaded}
    (ht : ∀ v i p w, Named env (Flows env f body) i → taint v i = .ok (p, w) → AllSteps P p) {v : List ObjId} {e : Node}
    {p : BodyPlan} {w : List ObjId} (he : FlowsUpTo env f body e)
    (hp : expression env f body fuel taint v e = .ok (p, w)) : AllSteps P p := by
  unfold Analyse.expression at hp
  split at hp
  · unfold keep at hp
    split at hp
    · rename_i q hq
      cases hp
      exact h.callSteps _ _ _ _ hq
    · cases hp
  · rename_i hu
    exact ht _ _ _ _ (he.named (.inl hu)) hp
  · rename_i hu
    split at hp
    · rename_i hc
      simp only [Bool.and_eq_true] at hc
      rw [hc.1] at hu
      split at hp
      · rename_i hx
        exact ht _ _ _ _ (he.named (.inr (.inl ⟨_, _, hu, hc.2, hx⟩))) hp
      · cases hp; exact h.affectorSteps _
    · cases hp; exact .one (h.report _ (by simp)) rfl
  · cases hp; exact h.affectorSteps _
  · cases hp; exact h.affectorSteps _
  · rename_i hu
    exact ht _ _ _ _ (he.named (.inr (.inr ⟨_, _, hu⟩))) hp
  all_goals cases hp; exact .one (h.report _ (by simp)) rfl

theorem StepProp.expressions (h : StepProp env f P) {expr : List ObjId → Node → Except Stop Threaded}
    : ∀ (es : List Node) {v : List ObjId} {p : BodyPlan} {w : List ObjId}, (∀ e ∈ es, ∀ v p w, expr v e = .ok (p, w) → AllSteps P p) →
    expressions expr v es = .ok (p, w) → AllSteps P p := by
  intro es
  induction es with
  | nil => intro v p w _ hp; simp only [Analyse.expressions] at hp; cases hp; exact .one h.empty rfl
  | cons e es ih =>
    intro v p w he hp
    simp only [Analyse.expressions, bind, Except.bind] at hp
    split at hp
    · cases hp
    · rename_i r hr
      split at hp
      · cases hp
      · rename_i r' hr'
        simp only [pure, Except.pure] at hp
        cases hp
        exact (he _ (List.mem_cons_self ..) _ _ _ hr).union (ih (fun e h => he e (List.mem_cons_of_mem _ h)) hr')

theorem StepProp.destructs (h : StepProp env f P) {expr : List ObjId → Node → Except Stop Threaded}
    : ∀ (ds : List Destruct) {v : List ObjId} {p : BodyPlan} {w : List ObjId},
    (∀ d ∈ ds, ∀ id x t, d.source.unparen = .typeAssert id x t → ∀ v p w, expr v x = .ok (p, w) → AllSteps P p) →
    destructs env f body fuel expr v ds = .ok (p, w) → AllSteps P p := by
  intro ds
  induction ds with
  | nil => intro v p w _ hp; simp only [Analyse.destructs] at hp; cases hp; exact .one h.empty rfl
  | cons d ds ih =>
    intro v p w he hp
    simp only [Analyse.destructs, bind, Except.bind] at hp
    split at hp
    · cases hp
    · rename_i r hr
      split at hp
      · cases hp
      · rename_i r' hr'
        simp only [pure, Except.pure] at hp
        cases hp
        refine .union ?_ (ih (fun d h => he d (List.mem_cons_of_mem _ h)) hr')
        obtain ⟨q, u⟩ := r
        unfold destruct at hr
        split at hr
        · rename_i hd
          exact he _ (List.mem_cons_self ..) _ _ _ hd _ _ _ hr
        · split at hr
          · split at hr
            · cases hr; exact .one (h.report _ (by simp)) rfl
            · unfold keep at hr
              split at hr
              · rename_i q' hq
                cases hr
                exact h.callSteps _ _ _ _ hq
              · cases hr
          · cases hr; exact .one (h.panic _) rfl
        · cases hr; exact .one (h.panic _) rfl

theorem StepProp.identTaint (h : StepProp env f P) (hb : (env.func f).body = some body) : ∀ (depth : Nat) (v : List ObjId) (i : Ident) (p : BodyPlan) (w : List ObjId),
    Named env (Flows env f body) i → identTaint env f body fuel depth v i = .ok (p, w) → AllSteps P p := by
  intro depth
  induction depth with
  | zero => intro v i p w _ hp; simp [Analyse.identTaint] at hp
  | succ depth ih =>
    intro v i p w hi hp
    unfold Analyse.identTaint at hp
    split at hp
    · cases hp; exact .one (h.panic _) rfl
    · cases hp
    · rename_i t ht
      obtain ⟨hj1, hj2, hj3⟩ := run_justified (fun e i x e' he hi hx hs => Flows.assigned he hi hx hs) hi ht
      simp only [bind, Except.bind] at hp
      split at hp
      · cases hp
      · rename_i r hr
        split at hp
        · cases hp
        · rename_i r' hr'
          simp only [pure, Except.pure] at hp
          cases hp
          have hrep : AllSteps P (Serum.reports (t.outOfScope.map (fun i => (⟨i.id, .errorOutOfScope⟩ : Diag)))) := by
            intro l hl
            rw [reports_leaves] at hl
            rcases hl with rfl | ⟨d, hd, rfl⟩
            · exact h.empty
            · obtain ⟨j, hj, rfl⟩ := List.mem_map.1 hd
              obtain ⟨⟨e, he, her⟩, hj⟩ := hj1 j hj
              exact h.outOfScope body e j hb he her hj
          refine hrep.union ((h.expressions _ ?_ hr).union (h.destructs _ ?_ hr'))
          · intro e he v p w hp
            obtain ⟨e', he', rfl⟩ := hj2 e he
            exact h.expression ih (.congr he') hp
          · intro d hd id x t hx v p w hp
            obtain ⟨j, o, ⟨e, he, her⟩, hjo, hdes⟩ := hj3 d hd
            exact h.expression ih (.of (.asserted he her hjo hdes hx)) hp

theorem StepProp.returnStmts (h : StepProp env f P) (hb : (env.func f).body = some body) : ∀ (ns : List Node) {v : List ObjId} {p : BodyPlan} {w : List ObjId},
    (∀ id rs, .ret id rs ∈ ns → WithinList ofFunction (.ret id rs) body) →
    returnStmts env f body fuel v ns = .ok (p, w) → AllSteps P p := by
  intro ns
  induction ns with
  | nil => intro v p w _ hp; simp only [Analyse.returnStmts] at hp; cases hp; exact .one h.empty rfl
  | cons n ns ih =>
    intro v p w hw hp
    have hw' := fun id rs h => hw id rs (List.mem_cons_of_mem _ h)
    cases n with
    | ret id results =>
      simp only [Analyse.returnStmts, bind, Except.bind] at hp
      split at hp
      · cases hp
      · rename_i r hr
        split at hp
        · cases hp
        · rename_i r' hr'
          simp only [pure, Except.pure] at hp
          cases hp
          refine .union ?_ (ih hw' hr')
          have hret : (∀ a, (getReturnStmtAnnotations (env.comments id)).1 = some a → a.shouldOverwrite = false) →
              ∀ r, returnStmt env f body fuel v results = .ok r → AllSteps P r.1 := by
            intro hno r hr
            unfold returnStmt at hr
            split at hr
            · cases hr; exact .one (h.panic _) rfl
            · rename_i e he
              exact h.expression (h.identTaint hb _) (.of (.result ⟨id, results, ⟨hw _ _ (List.mem_cons_self ..), hno⟩,
                resultExpression_ok.1 he⟩)) hr
          unfold annotatedReturn at hr
          split at hr
          rename_i annotation ds hann
          have hann1 : (getReturnStmtAnnotations (env.comments id)).1 = annotation := by rw [hann]
          have hds : Other (ds.map fun d => (⟨id, .annotation d⟩ : Diag)) := by
            intro d hd; obtain ⟨j, -, rfl⟩ := List.mem_map.1 hd; simp
          simp only at hr
          split at hr
          · simp only [bind, Except.bind] at hr
            split at hr
            · cases hr
            · rename_i x hx
              simp only [pure, Except.pure] at hr
              cases hr
              exact (h.reports hds).union (hret (by rw [hann1]; intro a ha; cases ha) _ hx)
          · rename_i a
            split at hr
            · rename_i ho
              simp only [pure, Except.pure] at hr
              cases hr
              exact (h.reports hds).union (.one (h.overwrite id a hann1 ho) rfl)
            · rename_i hno
              simp only [bind, Except.bind] at hr
              split at hr
              · cases hr
              · rename_i x hx
                simp only [pure, Except.pure] at hr
                cases hr
                have hno' : ∀ b, (getReturnStmtAnnotations (env.comments id)).1 = some b → b.shouldOverwrite = false := by
                  rw [hann1]; intro b hb; cases hb; simpa using hno
                exact (h.reports hds).union ((hret hno' _ hx).minus.union (.one (h.add id a hann1) rfl))
    | _ => exact ih hw' hp

theorem StepProp.fieldAssignment (h : StepProp env f P) (x : ObjId) (len : Nat) (rhs : List Node) :
    ∀ (ls : List Node) (et : Option ErrorType) (i : Nat), AllSteps P (fieldAssignment env f x len rhs et i ls) := by
  intro ls
  induction ls with
  | nil => intro et i; exact .one h.empty rfl
  | cons l ls ih =>
    intro et i
    unfold Analyse.fieldAssignment
    repeat' split
    all_goals first
      | exact ih _ _
      | exact .one (h.panic _) rfl
      | exact .union (.one (h.report _ (by simp)) rfl) (ih _ _)
      | exact .union (h.foundCode _) (ih _ _)

theorem StepProp.fieldAssignments (h : StepProp env f P) (x : ObjId) : ∀ ns : List Node,
    AllSteps P (fieldAssignments env f x ns) := by
  intro ns
  induction ns with
  | nil => exact .one h.empty rfl
  | cons n ns ih =>
    cases n with
    | assign id lhs rhs => exact .union (h.fieldAssignment _ _ _ _ _ _) ih
    | _ => exact ih

/-- Every atomic step of the plan of `f` has the property. -/
theorem StepProp.bodyPlan (h : StepProp env f P) {p : BodyPlan} (hp : bodyPlan env fuel f = .ok p) : AllSteps P p := by
  unfold Analyse.bodyPlan at hp
  split at hp
  · cases hp; exact .one (h.panic _) rfl
  · rename_i body hb
    unfold lift at hp
    split at hp
    · rename_i s hs
      simp only [bind, Except.bind] at hp
      split at hp
      · cases hp
      · rename_i r hr
        simp only [pure, Except.pure] at hp
        cases hp
        refine .union ((h.reports (other_constructor hs)).union (.one (h.param _ _ _ hs) rfl)) (.union (h.returnStmts hb _ (fun id rs hm => ?_) hr) ?_)
        · rw [intoReturns_eq] at hm; exact (mem_inspectList _ _ _).1 hm
        unfold assignedFields
        refine .unions h.empty fun q hq => ?_
        obtain ⟨x, _, rfl⟩ := List.mem_map.1 hq
        exact h.fieldAssignments _ _
    · cases hp; exact .one (h.panic _) rfl
    · cases hp

theorem StepProp.plan (h : StepProp env f P) : AllSteps P (plan env fuel f) := by
  unfold Analyse.plan
  split
  · rename_i p hp; exact h.bodyPlan hp
  · exact .one (h.panic _) rfl

end Analyse
end Serum
