import Verif.Analyse
import Verif.TaintFuel

/-! # Looking at one function body terminates -/

namespace Serum
open Flow

/-- Go's rules for constants (and other objects that are neither variables, functions nor types): the
initial value is a constant expression, so an identifier there is again a constant, without cycles. -/
def ConstOk (env : Env) (body : List Node) : Prop :=
  ∃ rank : ObjId → Nat, (∀ o, rank o ≤ env.objects.length) ∧
    ∀ x e i o, (env.object x).kind ≠ .var → Source env body x e → e.unparen = .ident i → i.obj = some o →
      (env.object o).kind ≠ .var ∧ rank o < rank x

namespace Taint
variable {env : Env} {function : FuncDef} {body : List Node} {param : Option ObjId}

/-- Tracking a variable terminates. -/
theorem run_terminates_le {fuel : Nat} (hf : enough env ≤ fuel) (visited : List ObjId) (i : Ident) :
    run env function body param fuel visited i ≠ .error .outOfFuel := by
  intro h
  have := findSpread_fine (env := env) (function := function) (body := body) (param := param)
    (P := fun e => e ≠ .outOfFuel) (.inr (by simp)) fuel i ⟨visited, [], [], [], []⟩
    (Nat.lt_of_lt_of_le (remaining_lt_enough _) hf)
  unfold run at h
  rw [h] at this
  exact this rfl

/-- The ways tracking can stop. -/
def Usual (e : Stop) : Prop := e = .outOfFuel ∨ ∃ loc, e = .panic loc

theorem run_stops {fuel : Nat} (hf : enough env ≤ fuel) (visited : List ObjId) (i : Ident) :
    (∃ r, run env function body param fuel visited i = .ok r ∧ ∀ o ∈ visited, o ∈ r.visited) ∨
    (∃ loc, run env function body param fuel visited i = .error (.panic loc)) := by
  have := findSpread_fine (env := env) (function := function) (body := body) (param := param)
    (P := fun e => ∃ loc, e = .panic loc) (.inr (by simp)) fuel i ⟨visited, [], [], [], []⟩
    (Nat.lt_of_lt_of_le (remaining_lt_enough _) hf)
  unfold run
  cases h : findSpread env function body param fuel i ⟨visited, [], [], [], []⟩ with
  | ok r => rw [h] at this; exact .inl ⟨r, rfl, this⟩
  | error e => rw [h] at this; obtain ⟨loc, rfl⟩ := this; exact .inr ⟨loc, rfl⟩

/-- If tracking finds anything, it has visited a new object. -/
theorem run_progress {fuel : Nat} (hf : enough env ≤ fuel) {visited : List ObjId} {i : Ident} {r : TaintState}
    (h : run env function body param fuel visited i = .ok r) :
    (r.expressions = [] ∧ r.destructs = [] ∧ r.visited = visited) ∨
      ∃ o ∈ candidates env param, o ∉ visited ∧ o ∈ r.visited := by
  unfold run at h
  cases fuel with
  | zero => simp [enough] at hf
  | succ fuel =>
    have hrem := remaining_lt_enough (env := env) (param := param) ⟨visited, [], [], [], []⟩
    have key := findSpread_fine (env := env) (function := function) (body := body) (param := param)
      (P := fun e => True) (.inr (by simp)) (fuel)
    unfold findSpread at h
    simp only at h
    cases ho : i.obj with
    | none =>
      simp only [ho] at h
      split at h
      · cases h; exact .inl ⟨rfl, rfl, rfl⟩
      · split at h <;> (cases h; exact .inl ⟨rfl, rfl, rfl⟩)
    | some o =>
      simp only [ho] at h
      split at h
      · cases h; exact .inl ⟨rfl, rfl, rfl⟩
      · rename_i hc
        split at h
        · cases h; exact .inl ⟨rfl, rfl, rfl⟩
        · rename_i hname
          split at h
          · cases h; exact .inl ⟨rfl, rfl, rfl⟩
          · rename_i hv
            have hu : o ∈ candidates env param := by
              unfold candidates
              simp only [List.mem_append, List.mem_range, Option.mem_toList]
              by_cases hp : param = some o
              · exact .inr hp
              · refine .inl ?_
                have hout : isIdentOriginOutsideFunctionScope env function i = false := by
                  cases hb : isIdentOriginOutsideFunctionScope env function i with
                  | false => rfl
                  | true => exact absurd ⟨by simp [hb], .inr hp⟩ hc
                rw [outside_iff] at hout
                rcases hout with hn | ⟨o', ho', h1, h2⟩
                · exact absurd hn hname
                · rw [ho] at ho'; cases ho'
                  refine Decidable.byContradiction fun hlt => ?_
                  simp [Env.object, List.getD, List.getElem?_eq_none (Nat.le_of_not_lt hlt)] at h1
            refine .inr ⟨o, hu, hv, ?_⟩
            have hlt := remaining_lt (env := env) (param := param)
              (st := ⟨visited, [], [], [], []⟩) hu hv
            have hf' : FollowFine env param (fun _ => True)
                (remaining env param ⟨visited ++ [o], [], [], [], []⟩)
                (findSpread env function body param fuel) :=
              fun i st' h => key i st' (by simp only at hlt; omega)
            have hinit := processInitValue_fine hf' o ⟨visited ++ [o], [], [], [], []⟩ (Nat.le_refl _)
            cases hp : processInitValue env (findSpread env function body param fuel) o
                ⟨visited ++ [o], [], [], [], []⟩ with
            | error e => simp [hp] at h
            | ok st₁ =>
              rw [hp] at hinit
              simp only [hp] at h
              have hnodes := processNodes_fine (body := body) hf' o (.inr (by simp)) _ st₁
                (fun m hm => (mem_inspectList _ _ _).1 hm) (remaining_le hinit)
              rw [h] at hnodes
              exact hnodes o (hinit o (by simp))

section
variable {follow : Ident → TaintState → Except Stop TaintState} {x : ObjId} {J : List Node → Prop}
  (hadd : ∀ e, Source env body x e → (¬ ∃ i y, VarUse env e i y) → ∀ l, J l → J (l ++ [e.unparen]))
  (hfol : ∀ e i y, Source env body x e → VarUse env e i y → ∀ st st', follow i st = .ok st' →
    J st.expressions → J st'.expressions)
include hadd hfol

private theorem assignedExpr_inv {e : Node} (he : Source env body x e) {st st' : TaintState}
    (h : processAssignedExpr env follow e st = .ok st') (hs : J st.expressions) : J st'.expressions := by
  have add : (¬ ∃ i y, VarUse env e i y) → st' = { st with expressions := st.expressions ++ [e.unparen] } →
      J st'.expressions := by
    rintro hn rfl
    exact hadd e he hn _ hs
  unfold processAssignedExpr at h
  split at h
  · rename_i i hu
    split at h
    · rename_i ho
      cases h; exact add (not_var_of_none hu ho) (by rw [hu])
    · rename_i o ho
      split at h
      · rename_i hk
        exact hfol e i o he ⟨hu, ho, hk⟩ _ _ h hs
      · rename_i hk
        cases h
        refine add ?_ (by rw [hu])
        rintro ⟨j, y, h1, h2, h3⟩
        rw [hu] at h1; cases h1
        rw [ho] at h2; cases h2
        exact hk h3
  · rename_i hne
    cases h
    refine add ?_ rfl
    rintro ⟨j, y, h1, _⟩
    exact hne j h1

private theorem valueInSpec_inv {names : List Ident} {values : List Node}
    (hd : (env.object x).decl = .valueSpec names values) {st st' : TaintState} (hs : J st.expressions) :
    ∀ (ns pre : List Ident), names = pre ++ ns → (∀ m ∈ pre, m.obj ≠ some x) →
      findValueInSpec env follow x names values pre.length ns st = .ok st' → J st'.expressions := by
  intro ns
  induction ns with
  | nil => intro pre _ _ h; simp only [findValueInSpec] at h; cases h; exact hs
  | cons m ns ih =>
    intro pre hn hpre h
    unfold findValueInSpec at h
    split at h
    · rename_i hm
      split at h
      · rename_i hlen
        split at h
        · rename_i v hv
          exact assignedExpr_inv hadd hfol (.inl ⟨pre, m, ns, values, by rw [hd, hn], hpre, hm, by rw [hlen, hn], hv⟩) h hs
        · cases h
      · split at h <;> (cases h; exact hs)
    · rename_i hm
      have h' : findValueInSpec env follow x names values (pre ++ [m]).length ns st = .ok st' := by
        simpa using h
      refine ih (pre ++ [m]) (by simp [hn]) (fun k hk => ?_) h'
      simp only [List.mem_append, List.mem_singleton] at hk
      rcases hk with hk | rfl
      · exact hpre k hk
      · exact hm

private theorem assignment_inv {id : NodeId} {lhs rhs : List Node} (hocc : Occurs (.assign id lhs rhs) body) :
    ∀ (ls pre : List Node) {st st' : TaintState}, lhs = pre ++ ls → J st.expressions →
      processAssignment env follow x lhs rhs pre.length ls st = .ok st' → J st'.expressions := by
  intro ls
  induction ls with
  | nil => intro pre st st' _ hs h; simp only [processAssignment] at h; cases h; exact hs
  | cons l ls ih =>
    intro pre st st' hl hs h
    have next : ∀ {st₁ : TaintState}, J st₁.expressions →
        processAssignment env follow x lhs rhs (pre.length + 1) ls st₁ = .ok st' → J st'.expressions := by
      intro st₁ hs₁ h
      refine ih (pre ++ [l]) (by simp [hl]) hs₁ ?_
      simpa using h
    unfold processAssignment at h
    split at h
    · rename_i t hu
      split at h
      · rename_i ht
        split at h
        · split at h
          · refine next ?_ h
            exact hs
          · cases h
        · rename_i hlen
          split at h
          · rename_i r hr
            split at h
            · rename_i st₁ hp
              refine next (assignedExpr_inv hadd hfol (.inr ⟨id, lhs, rhs, hocc, by simpa using hlen, pre.length, l, t, ?_, hu, ht, hr⟩) hp hs) h
              rw [hl]; simp
            · cases h
          · cases h
      · exact next hs h
    · exact next hs h

private theorem nodes_inv : ∀ (ns : List Node) {st st' : TaintState}, (∀ m ∈ ns, Occurs m body) →
    J st.expressions → processNodes env follow x ns st = .ok st' → J st'.expressions := by
  intro ns
  induction ns with
  | nil => intro st st' _ hs h; simp only [processNodes] at h; cases h; exact hs
  | cons n ns ih =>
    intro st st' hocc hs h
    have hocc' : ∀ m ∈ ns, Occurs m body := fun m hm => hocc m (by simp [hm])
    unfold processNodes at h
    cases n with
    | funcLit id fn type b =>
      simp only at h
      cases hb : blockParams (type.params.flatMap Field.names) st with
      | error e => simp [hb] at h
      | ok st₁ =>
        simp only [hb] at h
        refine ih hocc' ?_ h
        rw [(blockParams_spec _ hb).2.1]; exact hs
    | assign id lhs rhs =>
      simp only at h
      cases hp : processAssignment env follow x lhs rhs 0 lhs st with
      | error e => simp [hp] at h
      | ok st₁ =>
        simp only [hp] at h
        exact ih hocc' (assignment_inv hadd hfol (hocc (.assign id lhs rhs) (by simp)) lhs [] rfl hs hp) h
    | _ =>
      simp only at h
      exact ih hocc' hs h

end

/-- An invariant of the collected expressions when tracking object `x`, given what following other
variables does. -/
private theorem step_inv {fuel : Nat} {i : Ident} {x : ObjId} (ho : i.obj = some x) {J : List Node → Prop}
    (hadd : ∀ e, Source env body x e → (¬ ∃ i y, VarUse env e i y) → ∀ l, J l → J (l ++ [e.unparen]))
    (hfol : ∀ e i y, Source env body x e → VarUse env e i y → ∀ st st',
      findSpread env function body param fuel i st = .ok st' → J st.expressions → J st'.expressions)
    {st r : TaintState} (hs : J st.expressions)
    (h : findSpread env function body param (fuel + 1) i st = .ok r) : J r.expressions := by
  unfold findSpread at h
  simp only [ho] at h
  split at h
  · cases h; exact hs
  · split at h
    · cases h; exact hs
    · split at h
      · cases h; exact hs
      · cases hp : processInitValue env (findSpread env function body param fuel) x
            { st with visited := st.visited ++ [x] } with
        | error e => simp [hp] at h
        | ok st₁ =>
          simp only [hp] at h
          have h₁ : J st₁.expressions := by
            unfold processInitValue at hp
            split at hp
            · rename_i names values hd
              split at hp
              · cases hp; exact hs
              · exact valueInSpec_inv hadd hfol (st := { st with visited := st.visited ++ [x] }) hd hs names [] rfl (by simp) hp
            · cases hp; exact hs
          exact nodes_inv hadd hfol _ (fun m hm => (mem_inspectList _ _ _).1 hm) h₁ h

/-- Tracking an object to which no variable is assigned finds only what is assigned to it. -/
theorem run_from {fuel : Nat} {visited : List ObjId} {i : Ident} {x : ObjId} (ho : i.obj = some x)
    (hx : ∀ e, Source env body x e → ¬ ∃ i y, VarUse env e i y) {r : TaintState}
    (h : run env function body param fuel visited i = .ok r) :
    ∀ e ∈ r.expressions, ∃ e', Source env body x e' ∧ e = e'.unparen := by
  unfold run at h
  cases fuel with
  | zero => simp [findSpread] at h
  | succ fuel =>
    refine step_inv (J := fun l => ∀ e ∈ l, ∃ e', Source env body x e' ∧ e = e'.unparen) ho ?_ ?_ (by simp) h
    · intro e he _ l hl e' he'
      simp only [List.mem_append, List.mem_singleton] at he'
      rcases he' with he' | rfl
      · exact hl e' he'
      · exact ⟨e, he, rfl⟩
    · intro e i y he hv
      exact absurd ⟨i, y, hv⟩ (hx e he)

end Taint

namespace Node

theorem unparen_unparen : ∀ e : Node, e.unparen.unparen = e.unparen
  | .paren _ x => by simp only [unparen]; exact unparen_unparen x
  | .ident _ | .basicLit _ | .compositeLit _ _ | .keyValue _ _ _ | .funcLit _ _ _ _
  | .selector _ _ _ | .index _ _ _ | .typeAssert _ _ _ | .call _ _ _ | .unary _ _ _
  | .assign _ _ _ | .ret _ _ | .valueSpec _ _ _ _ | .typeSwitch _ _ _ _ | .caseClause _ _ _
  | .range _ _ _ _ _ | .send _ _ _ | .other _ _ => by simp only [unparen]

end Node

namespace Taint
variable {env : Env} {function : FuncDef} {body : List Node} {param : Option ObjId}

private theorem findSpread_plain : ∀ (fuel : Nat) (i : Ident) (st r : TaintState),
    findSpread env function body param fuel i st = .ok r →
    (∀ e ∈ st.expressions, ¬ ∃ i y, VarUse env e i y) → ∀ e ∈ r.expressions, ¬ ∃ i y, VarUse env e i y := by
  intro fuel
  induction fuel with
  | zero => intro i st r h; simp [findSpread] at h
  | succ fuel ih =>
    intro i st r h hs
    cases ho : i.obj with
    | none =>
      unfold findSpread at h
      simp only [ho] at h
      split at h
      · cases h; exact hs
      · split at h <;> (cases h; exact hs)
    | some x =>
      refine step_inv (J := fun l => ∀ e ∈ l, ¬ ∃ i y, VarUse env e i y) ho ?_ (fun _ _ _ _ _ => ih _) hs h
      intro e _ hn l hl e' he'
      simp only [List.mem_append, List.mem_singleton] at he'
      rcases he' with he' | rfl
      · exact hl e' he'
      · rintro ⟨j, y, h1, h2⟩
        exact hn ⟨j, y, by rw [Node.unparen_unparen] at h1; exact h1, h2⟩

private theorem findSpread_source : ∀ (fuel : Nat) (i : Ident) (st r : TaintState),
    findSpread env function body param fuel i st = .ok r →
    (∀ e ∈ st.expressions, ∃ x e', Source env body x e' ∧ e = e'.unparen) →
    ∀ e ∈ r.expressions, ∃ x e', Source env body x e' ∧ e = e'.unparen := by
  intro fuel
  induction fuel with
  | zero => intro i st r h; simp [findSpread] at h
  | succ fuel ih =>
    intro i st r h hs
    cases ho : i.obj with
    | none =>
      unfold findSpread at h
      simp only [ho] at h
      split at h
      · cases h; exact hs
      · split at h <;> (cases h; exact hs)
    | some x =>
      refine step_inv (J := fun l => ∀ e ∈ l, ∃ x e', Source env body x e' ∧ e = e'.unparen) ho ?_ (fun _ _ _ _ _ => ih _) hs h
      intro e he _ l hl e' he'
      simp only [List.mem_append, List.mem_singleton] at he'
      rcases he' with he' | rfl
      · exact hl e' he'
      · exact ⟨x, e, he, rfl⟩

/-- The collected expressions are assigned somewhere. -/
theorem run_source {fuel : Nat} {visited : List ObjId} {i : Ident} {r : TaintState}
    (h : run env function body param fuel visited i = .ok r) :
    ∀ e ∈ r.expressions, ∃ x e', Source env body x e' ∧ e = e'.unparen :=
  findSpread_source _ _ _ _ h (by simp)

/-- The collected expressions are no variables. -/
theorem run_plain {fuel : Nat} {visited : List ObjId} {i : Ident} {r : TaintState}
    (h : run env function body param fuel visited i = .ok r) :
    ∀ e ∈ r.expressions, ¬ ∃ i y, VarUse env e i y :=
  findSpread_plain _ _ _ _ h (by simp)

end Taint

namespace Analyse
open Taint
variable {env : Env} {f : FnId} {body : List Node}

/-- Not out of fuel, nor any other stop. -/
def Ok {α : Type} (r : Except Stop α) : Prop := ∃ a, r = .ok a

theorem Ok.lift {α : Type} {r : Except Stop α} {k : α → Except Stop BodyPlan}
    (hr : Ok r ∨ ∃ loc, r = .error (.panic loc)) (hk : ∀ a, r = .ok a → Ok (k a)) : Ok (lift r k) := by
  rcases hr with ⟨a, rfl⟩ | ⟨loc, rfl⟩
  · exact hk a rfl
  · exact ⟨_, rfl⟩

theorem constructorCall_stops (reportRange : NodeId) (callee : Option Object) (args : Option (List Node)) :
    Ok (extractErrorCodeFromConstructorCall env f reportRange callee args) ∨
      ∃ loc, extractErrorCodeFromConstructorCall env f reportRange callee args = .error (.panic loc) := by
  unfold extractErrorCodeFromConstructorCall
  repeat' split
  all_goals first | exact .inl ⟨_, rfl⟩ | exact .inr ⟨_, rfl⟩

theorem lambdaAssignments_ok {call : Node → Option Object → Except Stop BodyPlan} : ∀ es : List Node,
    (∀ e ∈ es, ∀ o, (∃ i, e.unparen = .ident i) ∨ (∃ id x s, e.unparen = .selector id x s) → Ok (call e.unparen o)) →
    Ok (lambdaAssignments env name call es) := by
  intro es
  induction es with
  | nil => intro _; exact ⟨_, rfl⟩
  | cons e es ih =>
    intro h
    obtain ⟨q, hq⟩ := ih (fun e he => h e (by simp [he]))
    have : Ok (lambdaAssignment env name call e) := by
      have he := h e (by simp)
      unfold lambdaAssignment
      split
      · exact ⟨_, rfl⟩
      · rename_i i hu
        rw [hu] at he
        exact he _ (.inl ⟨i, rfl⟩)
      · rename_i id x s hu
        rw [hu] at he
        exact he _ (.inr ⟨id, x, s, rfl⟩)
      · exact ⟨_, rfl⟩
    obtain ⟨p, hp⟩ := this
    exact ⟨.union p q, by simp [lambdaAssignments, hp, hq, bind, Except.bind, pure, Except.pure]⟩

theorem functionCall_ok {lambdas : Ident → Except Stop BodyPlan} {fn : Node} {callee : Option Object}
    {ce : Option (NodeId × List Node)}
    (h : ∀ i o, fn.unparen = .ident i → i.obj = some o → (∀ g, (env.object o).decl ≠ .funcDecl g) →
      (env.object o).decl ≠ .typeSpec → Ok (lambdas i)) :
    Ok (functionCall env f lambdas fn callee ce) := by
  unfold functionCall
  refine Ok.lift (constructorCall_stops _ _ _) fun ctor _ => ?_
  have hcf : Ok (calledFunction env f lambdas fn ce) := by
    unfold calledFunction
    split
    · rename_i i hu
      split
      · split <;> exact ⟨_, rfl⟩
      · rename_i o ho
        split
        · exact ⟨_, rfl⟩
        · split <;> exact ⟨_, rfl⟩
        · rename_i h1 h2
          obtain ⟨p, hp⟩ := h i o hu ho (fun g hg => h1 g hg) h2
          exact ⟨.inl p, by simp [hp, bind, Except.bind, pure, Except.pure]⟩
    · dsimp only
      repeat' split
      all_goals exact ⟨_, rfl⟩
    · exact ⟨_, rfl⟩
    · exact ⟨_, rfl⟩
  split
  · exact ⟨_, rfl⟩
  · dsimp only
    generalize (if ce.isSome = true ∧ callee = none then extractErrorCodesFromTypeConversion env fn else []) = cc
    split
    · exact ⟨_, rfl⟩
    · obtain ⟨r, hr⟩ := hcf
      rw [hr]
      simp only [bind, Except.bind]
      rcases r with p | _ | g <;> exact ⟨_, rfl⟩

theorem call_ok_aux {rank : ObjId → Nat} (hb : ∀ o, rank o ≤ env.objects.length)
    (hr : ∀ x e i o, (env.object x).kind ≠ .var → Source env body x e → e.unparen = .ident i → i.obj = some o →
      (env.object o).kind ≠ .var ∧ rank o < rank x) {tf : Nat} (htf : enough env ≤ tf) :
    ∀ (n : Nat) (fn : Node) (callee : Option Object) (ce : Option (NodeId × List Node)),
      (∀ i o, fn.unparen = .ident i → i.obj = some o →
        ((env.object o).kind ≠ .var ∧ rank o + 1 < n) ∨ env.objects.length + 2 < n) → 0 < n →
      Ok (call env f body tf n fn callee ce) := by
  intro n
  induction n with
  | zero => intro _ _ _ _ h; omega
  | succ n ih =>
    intro fn callee ce hm _
    unfold call
    refine functionCall_ok fun i o hu ho _ _ => ?_
    unfold allAssignedLambdas
    refine Ok.lift ?_ ?_
    · rcases run_stops (env := env) (function := env.func f) (body := body) (param := none) htf [] i with ⟨r, h, _⟩ | h
      · exact .inl ⟨r, h⟩
      · exact .inr h
    · intro t ht
      have : Ok (lambdaAssignments env i.name (fun n' o => call env f body tf n n' o none) t.expressions) := by
        have hpos : t.expressions ≠ [] → 0 < n := by
          intro _
          rcases hm i o hu ho with ⟨_, hlt⟩ | hlt <;> omega
        refine lambdaAssignments_ok _ fun e he callee' _ => ih _ _ _ ?_ (hpos (List.ne_nil_of_mem he))
        intro j o' hu' ho'
        rw [Node.unparen_unparen] at hu'
        rcases hm i o hu ho with ⟨hk, hlt⟩ | hlt
        · have hno : ∀ e, Source env body o e → ¬ ∃ i y, VarUse env e i y := by
            rintro e hs ⟨i', y, h1, h2, h3⟩
            exact (hr o e i' y hk hs h1 h2).1 h3
          obtain ⟨e', hs, rfl⟩ := run_from ho hno ht e he
          rw [Node.unparen_unparen] at hu'
          obtain ⟨h1, h2⟩ := hr o e' j o' hk hs hu' ho'
          exact .inl ⟨h1, by omega⟩
        · refine .inl ⟨fun hk => run_plain ht e he ⟨j, o', hu', ho', hk⟩, ?_⟩
          have := hb o'
          omega
      obtain ⟨p, hp⟩ := this
      simp only [hp, bind, Except.bind, pure, Except.pure]
      exact ⟨_, rfl⟩

variable (env) in
/-- Enough fuel for looking at a function body. -/
def bound : Nat := env.objects.length + 4

theorem callExpression_ok (hc : ConstOk env body) {fuel : Nat} (hf : bound env ≤ fuel) (id : NodeId) (fn : Node)
    (args : List Node) : Ok (callExpression env f body fuel id fn args) := by
  obtain ⟨rank, hb, hr⟩ := hc
  unfold bound at hf
  refine call_ok_aux hb hr (by unfold enough; omega) fuel _ _ _ (fun i o _ _ => .inr (by omega)) (by omega)

/-- Ended with a plan, having forgotten no visited object. -/
def Good (visited : List ObjId) (r : Except Stop Threaded) : Prop :=
  ∃ p v, r = .ok (p, v) ∧ ∀ o ∈ visited, o ∈ v

theorem Good.keep {visited : List ObjId} {r : Except Stop BodyPlan} (h : Ok r) : Good visited (keep visited r) := by
  obtain ⟨p, rfl⟩ := h
  exact ⟨p, visited, rfl, fun _ h => h⟩

/-- How many objects can still be visited. -/
def left (env : Env) (visited : List ObjId) : Nat := remaining env none ⟨visited, [], [], [], []⟩

theorem left_le {v v' : List ObjId} (h : ∀ o ∈ v, o ∈ v') : left env v' ≤ left env v :=
  remaining_le h

theorem expression_good (hc : ConstOk env body) {fuel : Nat} (hf : bound env ≤ fuel)
    {taint : List ObjId → Ident → Except Stop Threaded} {visited : List ObjId}
    (ht : ∀ i, Good visited (taint visited i)) (e : Node) :
    Good visited (expression env f body fuel taint visited e) := by
  unfold expression
  split
  · exact Good.keep (callExpression_ok hc hf _ _ _)
  · exact ht _
  · split
    · split
      · exact ht _
      · exact ⟨_, _, rfl, fun _ h => h⟩
    · exact ⟨_, _, rfl, fun _ h => h⟩
  · exact ⟨_, _, rfl, fun _ h => h⟩
  · exact ⟨_, _, rfl, fun _ h => h⟩
  · exact ht _
  · exact ⟨_, _, rfl, fun _ h => h⟩
  · exact ⟨_, _, rfl, fun _ h => h⟩
  · exact ⟨_, _, rfl, fun _ h => h⟩
  · exact ⟨_, _, rfl, fun _ h => h⟩

theorem expressions_good {expr : List ObjId → Node → Except Stop Threaded} : ∀ (es : List Node) (visited : List ObjId),
    (∀ v, (∀ o ∈ visited, o ∈ v) → ∀ e, Good v (expr v e)) → Good visited (expressions expr visited es) := by
  intro es
  induction es with
  | nil => intro visited _; exact ⟨_, _, rfl, fun _ h => h⟩
  | cons e es ih =>
    intro visited h
    obtain ⟨p, v, hp, hv⟩ := h visited (fun _ h => h) e
    obtain ⟨q, w, hq, hw⟩ := ih v (fun u hu => h u (fun o ho => hu o (hv o ho)))
    exact ⟨.union p q, w, by simp only [expressions, hp, hq, bind, Except.bind, pure, Except.pure], fun o ho => hw o (hv o ho)⟩

theorem destructs_good (hc : ConstOk env body) {fuel : Nat} (hf : bound env ≤ fuel)
    {expr : List ObjId → Node → Except Stop Threaded} : ∀ (ds : List Destruct) (visited : List ObjId),
    (∀ v, (∀ o ∈ visited, o ∈ v) → ∀ e, Good v (expr v e)) →
    Good visited (destructs env f body fuel expr visited ds) := by
  intro ds
  induction ds with
  | nil => intro visited _; exact ⟨_, _, rfl, fun _ h => h⟩
  | cons d ds ih =>
    intro visited h
    have : Good visited (destruct env f body fuel expr visited d) := by
      unfold destruct
      split
      · exact h visited (fun _ h => h) _
      · split
        · split
          · exact ⟨_, _, rfl, fun _ h => h⟩
          · exact Good.keep (callExpression_ok hc hf _ _ _)
        · exact ⟨_, _, rfl, fun _ h => h⟩
      · exact ⟨_, _, rfl, fun _ h => h⟩
    obtain ⟨p, v, hp, hv⟩ := this
    obtain ⟨q, w, hq, hw⟩ := ih v (fun u hu => h u (fun o ho => hu o (hv o ho)))
    exact ⟨.union p q, w, by simp only [destructs, hp, hq, bind, Except.bind, pure, Except.pure], fun o ho => hw o (hv o ho)⟩

theorem identTaint_good (hc : ConstOk env body) {fuel : Nat} (hf : bound env ≤ fuel) :
    ∀ (depth : Nat) (visited : List ObjId) (i : Ident), left env visited < depth →
      Good visited (identTaint env f body fuel depth visited i) := by
  intro depth
  induction depth with
  | zero => intro _ _ h; omega
  | succ depth ih =>
    intro visited i hd
    have hen : enough env ≤ fuel := by unfold bound at hf; unfold enough; omega
    unfold identTaint
    rcases run_stops (env := env) (function := env.func f) (body := body) (param := none) hen visited i with
      ⟨t, ht, hv⟩ | ⟨loc, ht⟩
    · simp only [ht]
      rcases run_progress hen ht with ⟨h1, h2, h3⟩ | ⟨o, ho, hno, hnew⟩
      · rw [h1, h2, h3]
        simp only [expressions, destructs, bind, Except.bind, pure, Except.pure]
        exact ⟨_, _, rfl, fun _ h => h⟩
      · have hlt : left env t.visited < depth := by
          have h1 : left env t.visited ≤ left env (visited ++ [o]) := by
            refine left_le fun o' ho' => ?_
            simp only [List.mem_append, List.mem_singleton] at ho'
            rcases ho' with ho' | rfl
            · exact hv o' ho'
            · exact hnew
          have h2 := remaining_lt (env := env) (param := none) (st := ⟨visited, [], [], [], []⟩) ho hno
          unfold left at *
          simp only at h2
          omega
        have hex : ∀ v, (∀ o ∈ t.visited, o ∈ v) → ∀ e,
            Good v (expression env f body fuel (identTaint env f body fuel depth) v e) := by
          intro v hv' e
          refine expression_good hc hf (fun j => ih v j ?_) e
          exact Nat.lt_of_le_of_lt (left_le hv') hlt
        obtain ⟨p, v, hp, hv1⟩ := expressions_good t.expressions t.visited hex
        obtain ⟨q, w, hq, hw⟩ := destructs_good (f := f) hc hf t.destructs v
          (fun u hu => hex u (fun o ho => hu o (hv1 o ho)))
        simp only [hp, hq, bind, Except.bind, pure, Except.pure]
        exact ⟨_, _, rfl, fun o ho => hw o (hv1 o (hv o ho))⟩
    · simp only [ht]
      exact ⟨_, _, rfl, fun _ h => h⟩

theorem left_lt_bound (visited : List ObjId) : left env visited < bound env := by
  have := remaining_lt_enough (env := env) (param := none) ⟨visited, [], [], [], []⟩
  unfold left
  unfold bound
  unfold enough at this
  omega

theorem returnStmt_good (hc : ConstOk env body) {fuel : Nat} (hf : bound env ≤ fuel) (visited : List ObjId)
    (results : List Node) : Good visited (returnStmt env f body fuel visited results) := by
  unfold returnStmt
  split
  · exact ⟨_, _, rfl, fun _ h => h⟩
  · exact expression_good hc hf
      (fun i => identTaint_good hc hf _ _ _ (Nat.lt_of_lt_of_le (left_lt_bound _) hf)) _

theorem annotatedReturn_good (hc : ConstOk env body) {fuel : Nat} (hf : bound env ≤ fuel) (visited : List ObjId)
    (id : NodeId) (results : List Node) : Good visited (annotatedReturn env f body fuel visited id results) := by
  obtain ⟨p, v, hp, hv⟩ := returnStmt_good (f := f) hc hf visited results
  unfold annotatedReturn
  split
  rename_i a ds _
  simp only
  cases a with
  | none => simp only [hp, bind, Except.bind, pure, Except.pure]; exact ⟨_, _, rfl, hv⟩
  | some a =>
    simp only
    split
    · exact ⟨_, _, rfl, fun _ h => h⟩
    · simp only [hp, bind, Except.bind, pure, Except.pure]; exact ⟨_, _, rfl, hv⟩

theorem returnStmts_good (hc : ConstOk env body) {fuel : Nat} (hf : bound env ≤ fuel) :
    ∀ (ns : List Node) (visited : List ObjId), Good visited (returnStmts env f body fuel visited ns) := by
  intro ns
  induction ns with
  | nil => intro visited; exact ⟨_, _, rfl, fun _ h => h⟩
  | cons n ns ih =>
    intro visited
    cases n with
    | ret id results =>
      obtain ⟨p, v, hp, hv⟩ := annotatedReturn_good (f := f) hc hf visited id results
      obtain ⟨q, w, hq, hw⟩ := ih v
      exact ⟨.union p q, w, by simp only [returnStmts, hp, hq, bind, Except.bind, pure, Except.pure], fun o ho => hw o (hv o ho)⟩
    | _ => exact ih visited

theorem constructor_stops {fuel : Nat} (hf : bound env ≤ fuel) :
    Ok (extractErrorCodesFromConstructor env f body fuel) ∨
      ∃ loc, extractErrorCodesFromConstructor env f body fuel = .error (.panic loc) := by
  unfold extractErrorCodesFromConstructor
  split
  · exact .inl ⟨_, rfl⟩
  · split
    · exact .inr ⟨_, rfl⟩
    · rename_i i _
      rcases run_stops (env := env) (function := env.func f) (body := body) (param := i.obj)
        (show enough env ≤ fuel by unfold bound at hf; unfold enough; omega) [] i with ⟨t, ht, _⟩ | ⟨loc, ht⟩
      · rw [ht]; exact .inl ⟨_, rfl⟩
      · rw [ht]; exact .inr ⟨loc, rfl⟩

/-- Looking at one function body terminates. -/
theorem bodyPlan_ok {fuel : Nat} (hc : ∀ body, (env.func f).body = some body → ConstOk env body)
    (hf : bound env ≤ fuel) : Ok (bodyPlan env fuel f) := by
  unfold bodyPlan
  split
  · exact ⟨_, rfl⟩
  · rename_i body hb
    refine Ok.lift (constructor_stops hf) fun a _ => ?_
    obtain ⟨p, v, hp, _⟩ := returnStmts_good (f := f) (hc body hb) hf (Node.inspectList intoReturns body) []
    rw [hp]
    exact ⟨_, rfl⟩

end Analyse
end Serum
