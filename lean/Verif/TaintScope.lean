import Verif.TaintLemmas
import Verif.Spec.BodySpec

/-! # Variable tracking reports only what is not local, without hypothesis on the body -/

namespace Serum
namespace Taint
open Flow

variable {env : Env} {function : FuncDef} {body : List Node} {param : Option ObjId} {F : Node → Prop}

variable (env body F) in
/-- A set of expressions that contains what is assigned to the variables its members refer to. -/
def Closed : Prop := ∀ e i x e', F e → RefersTo env e i → i.obj = some x → Source env body x e' → F e'

variable (env F) in
/-- One of the expressions refers to the identifier. -/
def Named (i : Ident) : Prop := ∃ e, F e ∧ RefersTo env e i

variable (env function body F) in
/-- Only parameters of literals are blocked, only identifiers that are declared outside or blocked are reported, and
everything in the state stems from the expressions `F`. -/
structure Justified (st : TaintState) : Prop where
  blocked : ∀ o ∈ st.blocked, LitParam body o
  reported : ∀ j ∈ st.outOfScope, Named env F j ∧
    (isIdentOriginOutsideFunctionScope env function j = true ∨ ∃ o, j.obj = some o ∧ LitParam body o)
  expressions : ∀ e ∈ st.expressions, ∃ e', F e' ∧ e = e'.unparen
  destructs : ∀ d ∈ st.destructs, ∃ i x, Named env F i ∧ i.obj = some x ∧ Destructured env body x d

variable (env function body F) in
/-- Following an identifier keeps the state justified. -/
def FollowJustified (follow : Ident → TaintState → Except Stop TaintState) : Prop :=
  ∀ i st st', Named env F i → Justified env function body F st → follow i st = .ok st' → Justified env function body F st'

variable {follow : Ident → TaintState → Except Stop TaintState}

theorem Justified.addExpr {st : TaintState} (hs : Justified env function body F st) {e : Node} (he : F e) {e₁ : Node}
    (h₁ : e₁ = e.unparen) : Justified env function body F { st with expressions := st.expressions ++ [e₁] } := by
  refine ⟨hs.1, hs.2, fun e' he' => ?_, hs.4⟩
  simp only [List.mem_append, List.mem_singleton] at he'
  rcases he' with he' | rfl
  · exact hs.3 e' he'
  · exact ⟨e, he, h₁⟩

theorem Justified.addDestruct {st : TaintState} (hs : Justified env function body F st) {i : Ident} {x : ObjId} {d : Destruct}
    (hi : Named env F i) (hx : i.obj = some x) (hd : Destructured env body x d) :
    Justified env function body F { st with destructs := st.destructs ++ [d] } := by
  refine ⟨hs.1, hs.2, hs.3, fun d' hd' => ?_⟩
  simp only [List.mem_append, List.mem_singleton] at hd'
  rcases hd' with hd' | rfl
  · exact hs.4 d' hd'
  · exact ⟨i, x, hi, hx, hd⟩

theorem processAssignedExpr_justified (hf : FollowJustified env function body F follow) {e : Node} (he : F e) {st st' : TaintState}
    (hs : Justified env function body F st) (h : processAssignedExpr env follow e st = .ok st') : Justified env function body F st' := by
  unfold processAssignedExpr at h
  split at h
  · rename_i i hu
    split at h
    · cases h; exact hs.addExpr he hu.symm
    · split at h
      · exact hf _ _ _ ⟨e, he, .inl hu⟩ hs h
      · cases h; exact hs.addExpr he hu.symm
  · cases h; exact hs.addExpr he rfl

theorem processInitValue_justified (hF : Closed env body F) (hf : FollowJustified env function body F follow) {i : Ident} {x : ObjId}
    (hi : Named env F i) (hx : i.obj = some x) {st st' : TaintState}
    (hs : Justified env function body F st) (h : processInitValue env follow x st = .ok st') : Justified env function body F st' := by
  unfold processInitValue at h
  cases hd : (env.object x).decl with
  | valueSpec names values =>
    simp only [hd] at h
    split at h
    · cases h; exact hs
    · have loop : ∀ (ns pre : List Ident), names = pre ++ ns → (∀ m ∈ pre, m.obj ≠ some x) →
          findValueInSpec env follow x names values pre.length ns st = .ok st' → Justified env function body F st' := by
        intro ns
        induction ns with
        | nil => intro pre _ _ h; cases h; exact hs
        | cons n ns ih =>
          intro pre hn hpre h
          unfold findValueInSpec at h
          split at h
          · rename_i hno
            split at h
            · rename_i hlen
              split at h
              · rename_i v hv
                obtain ⟨e, he, her⟩ := hi
                exact processAssignedExpr_justified hf (hF e i x v he her hx (.inl ⟨pre, n, ns, values, by rw [hd, hn], hpre, hno,
                  by rw [hlen, hn], hv⟩)) hs h
              · cases h
            · rename_i hlen
              split at h
              · cases h
                exact hs.addDestruct hi hx (.inl ⟨pre, ns, _, by rw [hd, hn], hpre, hno, by rw [← hn]; exact hlen, rfl, rfl⟩)
              · cases h; exact hs
          · rename_i hno
            have := ih (pre ++ [n]) (by simp [hn])
              (fun m hm => by
                simp only [List.mem_append, List.mem_singleton] at hm
                rcases hm with hm | rfl
                · exact hpre m hm
                · exact hno)
            rw [show (pre ++ [n]).length = pre.length + 1 by simp] at this
            exact this h
      exact loop names [] rfl (by simp) h
  | _ => simp only [hd] at h; cases h; exact hs

theorem processAssignment_justified (hF : Closed env body F) (hf : FollowJustified env function body F follow) {i : Ident} {x : ObjId}
    (hi : Named env F i) (hx : i.obj = some x) {id : NodeId} {lhs rhs : List Node} (hocc : Occurs (.assign id lhs rhs) body) :
    ∀ (ls pre : List Node) {st st' : TaintState}, lhs = pre ++ ls → Justified env function body F st →
      processAssignment env follow x lhs rhs pre.length ls st = .ok st' → Justified env function body F st' := by
  intro ls
  induction ls with
  | nil => intro pre st st' _ hs h; cases h; exact hs
  | cons l ls ih =>
    intro pre st st' hl hs h
    have hget : lhs[pre.length]? = some l := by rw [hl]; simp
    have next : ∀ {st₁ : TaintState}, Justified env function body F st₁ →
        processAssignment env follow x lhs rhs (pre.length + 1) ls st₁ = .ok st' → Justified env function body F st' := by
      intro st₁ h1 h2
      refine ih (pre ++ [l]) (by simp [hl]) h1 ?_
      rw [show (pre ++ [l]).length = pre.length + 1 by simp]; exact h2
    unfold processAssignment at h
    split at h
    · rename_i t hu
      split at h
      · rename_i ho
        split at h
        · rename_i hlen
          split at h
          · exact next (hs.addDestruct hi hx (.inr ⟨id, lhs, _, hocc, hlen, l, hget, hu, ho, rfl⟩)) h
          · cases h
        · rename_i hlen
          have hlen : lhs.length = rhs.length := Classical.byContradiction hlen
          split at h
          · rename_i r hr
            split at h
            · rename_i hp
              obtain ⟨e, he, her⟩ := hi
              exact next (processAssignedExpr_justified hf (hF e i x r he her hx
                (.inr ⟨id, lhs, rhs, hocc, hlen, pre.length, l, t, hget, hu, ho, hr⟩)) hs hp) h
            · cases h
          · cases h
      · exact next hs h
    · exact next hs h

theorem processNodes_justified (hF : Closed env body F) (hf : FollowJustified env function body F follow) {i : Ident} {x : ObjId}
    (hi : Named env F i) (hx : i.obj = some x) :
    ∀ (ns : List Node) {st st' : TaintState}, (∀ n ∈ ns, Occurs n body) → Justified env function body F st →
      processNodes env follow x ns st = .ok st' → Justified env function body F st' := by
  intro ns
  induction ns with
  | nil => intro st st' _ hs h; cases h; exact hs
  | cons n ns ih =>
    intro st st' ho hs h
    unfold processNodes at h
    have go : ∀ st₁, Justified env function body F st₁ → processNodes env follow x ns st₁ = .ok st' → Justified env function body F st' :=
      fun st₁ h1 h2 => ih (fun n hn => ho n (List.mem_cons_of_mem _ hn)) h1 h2
    cases n with
    | funcLit id fn type b =>
      simp only at h
      cases hb : blockParams (type.params.flatMap Field.names) st with
      | error e => simp [hb] at h
      | ok st₁ =>
        simp only [hb] at h
        obtain ⟨-, b2, b3, b4, b5⟩ := blockParams_spec _ hb
        refine go st₁ ⟨fun p hp => ?_, b4 ▸ hs.2, b2 ▸ hs.3, b3 ▸ hs.4⟩ h
        rcases (b5 p).1 hp with hp | ⟨m, hm, hp⟩
        · exact hs.1 p hp
        · exact ⟨id, fn, type, b, ho _ (List.mem_cons_self ..), m, hm, hp⟩
    | assign id lhs rhs =>
      simp only at h
      cases hp : processAssignment env follow x lhs rhs 0 lhs st with
      | error e => simp [hp] at h
      | ok st₁ =>
        simp only [hp] at h
        exact go st₁ (processAssignment_justified hF hf hi hx (ho _ (List.mem_cons_self ..)) lhs [] rfl hs hp) h
    | _ => exact go st hs h

theorem findSpread_justified (hF : Closed env body F) : ∀ fuel, FollowJustified env function body F (findSpread env function body param fuel) := by
  intro fuel
  induction fuel with
  | zero => intro i st st' _ _ h; simp [findSpread] at h
  | succ fuel ih =>
    intro i st st' hi hs h
    unfold findSpread at h
    have report : ∀ {j}, j = i → (isIdentOriginOutsideFunctionScope env function i = true ∨ ∃ o, i.obj = some o ∧ LitParam body o) →
        Justified env function body F { st with outOfScope := st.outOfScope ++ [j] } := by
      rintro _ rfl hj
      refine ⟨hs.1, fun j' hj' => ?_, hs.3, hs.4⟩
      simp only [List.mem_append, List.mem_singleton] at hj'
      rcases hj' with hj' | rfl
      · exact hs.2 j' hj'
      · exact ⟨hi, hj⟩
    cases ho : i.obj with
    | none =>
      simp only [ho, Bool.false_or] at h
      by_cases hc : isIdentOriginOutsideFunctionScope env function i = true ∧ (param = none ∨ param ≠ none)
      · rw [if_pos hc] at h
        cases h
        exact report rfl (.inl hc.1)
      · rw [if_neg hc] at h
        split at h <;> (cases h; exact hs)
    | some o =>
      simp only [ho] at h
      by_cases hc : (decide (o ∈ st.blocked) || isIdentOriginOutsideFunctionScope env function i) = true ∧ (param = none ∨ param ≠ some o)
      · rw [if_pos hc] at h
        cases h
        refine report rfl ?_
        rcases Bool.or_eq_true .. ▸ hc.1 with hb | hb
        · exact .inr ⟨o, ho, hs.1 o (of_decide_eq_true hb)⟩
        · exact .inl hb
      · rw [if_neg hc] at h
        have hs0 : Justified env function body F { st with visited := st.visited ++ [o] } := ⟨hs.1, hs.2, hs.3, hs.4⟩
        split at h
        · cases h; exact hs
        · split at h
          · cases h; exact hs
          · split at h
            · cases h
            · rename_i hp
              exact processNodes_justified hF ih hi ho _ (fun n hn => (mem_inspectList _ _ _).1 hn)
                (processInitValue_justified hF ih hi ho hs0 hp) h

/-- Everything that is reported is declared outside the function, or is a parameter of a literal; and everything that is
found stems from expressions that flow into the start variable. -/
theorem run_justified (hF : Closed env body F) {fuel : Nat} {seen : List ObjId} {i : Ident} {r : TaintState} (hi : Named env F i)
    (h : run env function body param fuel seen i = .ok r) :
    (∀ j ∈ r.outOfScope, Named env F j ∧ (¬ Inside env function j ∨ ∃ o, j.obj = some o ∧ LitParam body o)) ∧
    (∀ e ∈ r.expressions, ∃ e', F e' ∧ e = e'.unparen) ∧
    (∀ d ∈ r.destructs, ∃ i x, Named env F i ∧ i.obj = some x ∧ Destructured env body x d) := by
  have := findSpread_justified (function := function) (param := param) hF fuel i _ r hi ⟨by simp, by simp, by simp, by simp⟩ h
  refine ⟨fun j hj => ⟨(this.2 j hj).1, ?_⟩, this.3, this.4⟩
  rcases (this.2 j hj).2 with h | h
  · refine .inl fun hi => ?_
    rw [(outside_iff j).2 hi] at h; cases h
  · exact .inr h

end Taint
end Serum
