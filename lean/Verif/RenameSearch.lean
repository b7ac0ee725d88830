import Verif.RenameBody

/-! # Renaming variables: the search -/

namespace Serum
namespace Rename
open Search

variable {ρ : Renaming} {env : Env} {f : FnId}

/-- The same state, and the same diagnostics apart from names of variables. -/
structure SearchRel (ρ : Renaming) (s s' : Search FnId Diag) : Prop where
  scc : s'.scc = s.scc
  found : s'.found = s.found
  comps : s'.comps = s.comps
  diags : Pairwise₂ (fun d d' => d'.1 = d.1 ∧ DiagRel ρ d.2 d'.2) s.diags s'.diags

/-- The same result. -/
def ResultRel {α : Type} (ρ : Renaming) (x x' : α × Search FnId Diag) : Prop := x'.1 = x.1 ∧ SearchRel ρ x.2 x'.2

theorem targets_rel {p p' : BodyPlan} (h : PlanRel ρ p p') : p'.targets = p.targets := by
  induction h with
  | union _ _ ih ih' => unfold Plan.targets; rw [ih, ih']
  | minus _ ih => exact ih
  | _ => rfl

/-- Searching in the same way. -/
def RecurseRel (ρ : Renaming) (r r' : FnId → Search FnId Diag → Except Stop (CodeSet × Search FnId Diag)) : Prop :=
  ∀ g s s', SearchRel ρ s s' → ERel (ResultRel ρ) (r g s) (r' g s')

theorem exec_rel {r r' : FnId → Search FnId Diag → Except Stop (CodeSet × Search FnId Diag)} (hr : RecurseRel ρ r r') (cur : FnId) {p p' : BodyPlan}
    (hp : PlanRel ρ p p') : ∀ {s s' : Search FnId Diag}, SearchRel ρ s s' → ERel (ResultRel ρ) (exec r cur p s) (exec r' cur p' s') := by
  induction hp with
  | codes => intro s s' h; exact .ok ⟨rfl, h⟩
  | report hd => intro s s' h; exact .ok ⟨rfl, h.scc, h.found, h.comps, h.diags.append (.cons ⟨rfl, hd⟩ .nil)⟩
  | panic => intro s s' h; exact .error
  | visit => intro s s' h; exact hr _ _ _ h
  | @call g =>
    intro s s' h
    unfold exec
    rw [h.scc]
    refine (ERel.of_eq rfl).bind fun a b hab => ?_
    subst hab
    dsimp only
    refine .ite (fun _ => ?_) fun _ => .ok ⟨by simp only [h.found], rfl, h.found, h.comps, h.diags⟩
    refine (hr g { s with scc := b.2 } { s' with scc := b.2 } ⟨rfl, h.found, h.comps, h.diags⟩).bind fun a b hab => ?_
    rw [hab.2.scc]
    refine (ERel.of_eq rfl).bind fun c d hcd => ?_
    subst hcd
    exact .ok ⟨hab.1, rfl, hab.2.found, hab.2.comps, hab.2.diags⟩
  | union _ _ ih ih' =>
    intro s s' h
    refine (ih h).bind fun a b hab => (ih' hab.2).bind fun c d hcd => .ok ⟨?_, hcd.2⟩
    show CodeSet.union b.1 d.1 = CodeSet.union a.1 c.1
    rw [hab.1, hcd.1]
  | minus _ ih =>
    intro s s' h
    refine (ih h).bind fun a b hab => .ok ⟨?_, hab.2⟩
    show CodeSet.diff b.1 _ = CodeSet.diff a.1 _
    rw [hab.1]

theorem setFound_rel {s s' : Search FnId Diag} (h : SearchRel ρ s s') (g : FnId) (c : CodeSet) : SearchRel ρ (s.setFound g c) (s'.setFound g c) :=
  ⟨h.scc, by simp only [setFound, h.found], h.comps, h.diags⟩

theorem unify_rel {s s' : Search FnId Diag} (h : SearchRel ρ s s') (c : List FnId) : ResultRel ρ (s.unify c) (s'.unify c) := by
  unfold unify
  rw [h.found]
  refine ⟨rfl, ?_⟩
  dsimp only
  generalize c.foldl (fun r f => CodeSet.union r ((s.found f).getD [])) [] = result
  induction c generalizing s s' with
  | nil => exact h
  | cons g c ih => exact ih (setFound_rel h g result)

theorem findInFunc_rel {plan plan' : FnId → BodyPlan} (hp : ∀ f, PlanRel ρ (plan f) (plan' f)) : ∀ n,
    RecurseRel ρ (findInFunc plan n) (findInFunc plan' n) := by
  intro n
  induction n with
  | zero => intro g s s' _; exact .error
  | succ n ih =>
    intro g s s' h
    unfold findInFunc
    rw [h.scc]
    refine (ERel.of_eq rfl).bind fun a b hab => ?_
    subst hab
    refine (exec_rel ih g (hp g) (s := { s with scc := b }) (s' := { s' with scc := b }) ⟨rfl, h.found, h.comps, h.diags⟩).bind fun a b hab => ?_
    obtain ⟨x, s⟩ := a
    obtain ⟨x', s'⟩ := b
    obtain ⟨rfl, h⟩ := hab
    have h := setFound_rel h g x'
    dsimp only
    rw [h.scc]
    refine (ERel.of_eq rfl).bind fun c d hcd => ?_
    subst hcd
    obtain ⟨c, scc⟩ := d
    cases c with
    | none => exact .ok ⟨rfl, rfl, h.found, h.comps, h.diags⟩
    | some c =>
      refine .ok (unify_rel ?_ c)
      exact ⟨rfl, h.found, congrArg (· ++ [c]) h.comps, h.diags⟩

theorem findCached_rel {plan plan' : FnId → BodyPlan} (hp : ∀ f, PlanRel ρ (plan f) (plan' f)) (n : Nat) : RecurseRel ρ (findCached plan n) (findCached plan' n) := by
  intro g s s' h
  unfold findCached
  rw [h.found]
  cases s.found g with
  | some c => exact .ok ⟨rfl, h⟩
  | none => exact findInFunc_rel hp n g s s' h

theorem findAll_rel {plan plan' : FnId → BodyPlan} (hp : ∀ f, PlanRel ρ (plan f) (plan' f)) (n : Nat) : ∀ (fs : List FnId) {s s' : Search FnId Diag},
    SearchRel ρ s s' → ERel (ResultRel ρ) (findAll plan n fs s) (findAll plan' n fs s')
  | [], _, _, h => .ok ⟨rfl, h⟩
  | f :: fs, _, _, h => by
    refine (findCached_rel hp n f _ _ h).bind fun a b hab => (findAll_rel hp n fs hab.2).bind fun c d hcd => .ok ⟨?_, hcd.2⟩
    show (f, b.1) :: d.1 = (f, a.1) :: c.1
    rw [hab.1, hcd.1]

/-! ## Conversions -/

theorem methodCodes_rel {plan plan' : FnId → BodyPlan} (hp : ∀ f, PlanRel ρ (plan f) (plan' f)) (n : Nat) (T : GoType) (m : GoString)
    {s s' : Search FnId Diag} (h : SearchRel ρ s s') :
    ERel (ResultRel ρ) (Conv.methodCodes env plan n T m s) (Conv.methodCodes (env.rename ρ) plan' n T m s') := by
  have h1 : (env.rename ρ).searchMethodType = env.searchMethodType := rfl
  have h2 : (env.rename ρ).facts = env.facts := rfl
  have h3 : (env.rename ρ).searchMethod = env.searchMethod := rfl
  unfold Conv.methodCodes
  rw [h1, h2, h3]
  cases env.searchMethodType T m with
  | none => exact .error
  | some o =>
    dsimp only
    cases env.facts.codes o with
    | some c => exact .ok ⟨rfl, h⟩
    | none =>
      dsimp only
      cases env.searchMethod T m with
      | none => exact .ok ⟨rfl, h⟩
      | some f => exact findCached_rel hp n f _ _ h

theorem checkMethods_rel {plan plan' : FnId → BodyPlan} (hp : ∀ f, PlanRel ρ (plan f) (plan' f)) (o : Conv.Orders) (n : Nat) (c : Conv.Check) :
    ∀ (ms : List (GoString × CodeSet)) {s s' : Search FnId Diag}, SearchRel ρ s s' →
    ERel (ResultRel ρ) (Conv.checkMethods env o plan n c ms s) (Conv.checkMethods (env.rename ρ) o plan' n c ms s')
  | [], _, _, h => .ok ⟨rfl, h⟩
  | (m, allowed) :: ms, _, _, h => by
    refine (methodCodes_rel hp n c.source m h).bind fun a b hab => ?_
    refine (checkMethods_rel hp o n c ms hab.2).bind fun x y hxy => .ok ⟨?_, hxy.2⟩
    simp only [hab.1, hxy.1]

theorem runCheck_rel {plan plan' : FnId → BodyPlan} (hp : ∀ f, PlanRel ρ (plan f) (plan' f)) (o : Conv.Orders) (n : Nat) (c : Conv.Check)
    {s s' : Search FnId Diag} (h : SearchRel ρ s s') :
    ERel (ResultRel ρ) (Conv.runCheck env o plan n c s) (Conv.runCheck (env.rename ρ) o plan' n c s') := by
  unfold Conv.runCheck
  refine .ite (fun _ => .ok ⟨rfl, h⟩) fun _ => ?_
  cases c.source with
  | untypedNil => exact .ok ⟨rfl, h⟩
  | _ => exact checkMethods_rel hp o n c _ h

theorem runSteps_rel {plan plan' : FnId → BodyPlan} (hp : ∀ f, PlanRel ρ (plan f) (plan' f)) (o : Conv.Orders) (n : Nat) :
    ∀ (ss : List Conv.Step) {s s' : Search FnId Diag}, SearchRel ρ s s' →
    ERel (ResultRel ρ) (Conv.runSteps env o plan n ss s) (Conv.runSteps (env.rename ρ) o plan' n ss s')
  | [], _, _, h => .ok ⟨rfl, h⟩
  | .panic loc :: _, _, _, _ => .error
  | .check c :: ss, _, _, h => by
    refine (runCheck_rel hp o n c h).bind fun a b hab => ?_
    refine (runSteps_rel hp o n ss hab.2).bind fun x y hxy => .ok ⟨?_, hxy.2⟩
    simp only [hab.1, hxy.1]

end Rename
end Serum
