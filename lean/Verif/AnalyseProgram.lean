import Verif.AnalyseBody

/-! # Function bodies as the parser and the type checker produce them -/

namespace Serum
namespace Analyse
open Flow Taint

/-- What parser and type checker guarantee for a function with a body, together with lexical scoping of the
parameters of nested function literals (`ScopeOk`). -/
structure Regular (env : Env) (f : FnId) (body : List Node) : Prop where
  has : (env.func f).body = some body
  scope : ScopeOk env f body
  parsed : BodyOk body
  consts : ConstOk env body
  /-- the recorded error code parameter exists -/
  ctor : ∀ position, importErrorConstructorFact env f = some position →
    getParamIdent (env.func f).type position ≠ none

variable {env : Env} {f : FnId} {body : List Node} {fuel : Nat}

theorem bound_enough (hf : bound env ≤ fuel) : enough env ≤ fuel := by unfold bound at hf; unfold enough; omega

theorem run_ok_fuel {function : FuncDef} {param : Option ObjId} (hb : BodyOk body) (hf : enough env ≤ fuel)
    (visited : List ObjId) (i : Ident) : ∃ r, run env function body param fuel visited i = .ok r := by
  have := findSpread_fine (env := env) (function := function) (body := body) (param := param)
    (P := fun _ => False) (.inl hb) fuel i ⟨visited, [], [], [], []⟩ (Nat.lt_of_lt_of_le (remaining_lt_enough _) hf)
  unfold run
  cases h : findSpread env function body param fuel i ⟨visited, [], [], [], []⟩ with
  | ok r => exact ⟨r, rfl⟩
  | error e => rw [h] at this; exact this.elim

theorem Regular.constructor (h : Regular env f body) (hf : bound env ≤ fuel) :
    ∃ x, extractErrorCodesFromConstructor env f body fuel = .ok x := by
  unfold extractErrorCodesFromConstructor
  split
  · exact ⟨_, rfl⟩
  · rename_i position hpos
    split
    · rename_i hn; exact absurd hn (h.ctor position hpos)
    · rename_i i hi
      obtain ⟨r, hr⟩ := run_ok_fuel (function := env.func f) (param := i.obj) h.parsed (bound_enough hf) [] i
      rw [hr]
      exact ⟨_, rfl⟩

theorem Regular.look (h : Regular env f body) (hf : bound env ≤ fuel) :
    ∃ x, extractErrorCodesFromConstructor env f body fuel = .ok x ∧ bodyPlan env fuel f = .ok (plan env fuel f) := by
  obtain ⟨x, hx⟩ := h.constructor hf
  obtain ⟨p, hp⟩ := bodyPlan_ok (f := f) (fun b hb => by rw [h.has] at hb; cases hb; exact h.consts) hf
  exact ⟨x, hx, by simp [plan, hp]⟩

/-- The steps of a function body. -/
theorem Regular.leaves (h : Regular env f body) (hf : bound env ≤ fuel) {x : Founds}
    (hx : extractErrorCodesFromConstructor env f body fuel = .ok x) {l : BodyPlan} (hl : l ≠ .codes []) :
    l ∈ (plan env fuel f).leaves ↔ BodyLeaf env f body fuel x l := by
  obtain ⟨_, _, hp⟩ := h.look hf
  exact (bodyPlan_spec h.has h.scope h.parsed (bound_enough hf) hx hp).1 l hl

theorem Regular.noMinus (h : Regular env f body) (hf : bound env ≤ fuel) (hn : NoSub env body) :
    (plan env fuel f).NoMinus := by
  obtain ⟨_, hx, hp⟩ := h.look hf
  exact (bodyPlan_spec h.has h.scope h.parsed (bound_enough hf) hx hp).2 hn

theorem Regular.yields (h : Regular env f body) (hf : bound env ≤ fuel) (hsep : Separate env f body) {x : Founds}
    (hx : extractErrorCodesFromConstructor env f body fuel = .ok x) (ρ : FnId → GoString → Prop) (c : GoString) :
    (plan env fuel f).Yields ρ c ↔ c ∈ x.1 ∨
      (∃ id results, WithinList ofFunction (.ret id results) body ∧ ReturnYields env f body fuel ρ id results c) ∨
      (∃ x, ErrVar env f body x ∧ (fieldAssignments env f x (Node.inspectList intoFields body)).Yields ρ c) := by
  obtain ⟨_, _, hp⟩ := h.look hf
  exact bodyPlan_yields h.has h.scope h.parsed (bound_enough hf) hsep hx hp ρ c

/-- A step of an error expression is a step of the function. -/
theorem Regular.errExpr (h : Regular env f body) (hf : bound env ≤ fuel) {e : Node} (he : ErrExpr env f body e)
    {q : BodyPlan} (hq : terminal env f body fuel e = .ok q) {l : BodyPlan} (hl : l ∈ q.leaves) (hn : l ≠ .codes []) :
    l ∈ (plan env fuel f).leaves := by
  obtain ⟨x, hx⟩ := h.constructor hf
  exact (h.leaves hf hx hn).2 (.just (.terminal he hq hl))

/-- A step of a destructuring assignment is a step of the function. -/
theorem Regular.destruct (h : Regular env f body) (hf : bound env ≤ fuel) {x : ObjId} (hx : ErrVar env f body x) {d : Destruct}
    (hd : Destructured env body x d) {q : BodyPlan} (hq : terminalD env f body fuel d = .ok q) {l : BodyPlan}
    (hl : l ∈ q.leaves) (hn : l ≠ .codes []) : l ∈ (plan env fuel f).leaves := by
  obtain ⟨x, hx'⟩ := h.constructor hf
  exact (h.leaves hf hx' hn).2 (.just (.destruct hx hd hq hl))

end Analyse
end Serum
