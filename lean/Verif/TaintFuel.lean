import Verif.TaintLemmas

/-! # Variable tracking terminates, and when it panics -/

namespace Serum
namespace Taint
open Flow

variable {env : Env} {function : FuncDef} {body : List Node} {param : Option ObjId}

/-- What the Go parser guarantees of the assignments and function literals of a body: parameters of
literals have objects, and an assignment has one value, or as many as targets. -/
structure BodyOk (body : List Node) : Prop where
  params : ∀ id fn type b, Occurs (.funcLit id fn type b) body →
    ∀ n ∈ type.params.flatMap Field.names, n.obj ≠ none
  assigns : ∀ id lhs rhs, Occurs (.assign id lhs rhs) body → lhs ≠ [] → rhs ≠ []

/-- A result that is fine: a state with at least the visited objects, or an acceptable stop. -/
def Fine (P : Stop → Prop) (st : TaintState) : Except Stop TaintState → Prop
  | .ok st' => ∀ o ∈ st.visited, o ∈ st'.visited
  | .error e => P e

variable (env param) in
/-- The objects that can be visited. -/
def candidates : List ObjId := List.range env.objects.length ++ param.toList

variable (env param) in
/-- How many objects can still be visited. -/
def remaining (st : TaintState) : Nat := ((candidates env param).filter (· ∉ st.visited)).length

theorem remaining_le {st st' : TaintState} (h : ∀ o ∈ st.visited, o ∈ st'.visited) :
    remaining env param st' ≤ remaining env param st := by
  unfold remaining
  refine List.Sublist.length_le ?_
  generalize candidates env param = l
  induction l with
  | nil => simp
  | cons a l ih =>
    simp only [List.filter_cons]
    by_cases h1 : a ∈ st'.visited
    · by_cases h2 : a ∈ st.visited
      · simpa [h1, h2] using ih
      · simp only [h1, h2, not_true_eq_false, decide_false, not_false_eq_true, decide_true, if_true]
        exact ih.cons a
    · have h2 : a ∉ st.visited := fun h2 => h1 (h a h2)
      simp only [h1, h2, not_false_eq_true, decide_true, if_true]
      exact ih.cons_cons a

private theorem filter_le {o : ObjId} {v : List ObjId} : ∀ l : List ObjId,
    (l.filter (· ∉ v ++ [o])).length ≤ (l.filter (· ∉ v)).length := by
  intro l
  induction l with
  | nil => simp
  | cons b l ih =>
    by_cases h1 : b ∈ v
    · rw [List.filter_cons_of_neg (by simp [h1]), List.filter_cons_of_neg (by simp [h1])]; exact ih
    · rw [List.filter_cons_of_pos (a := b) (p := fun x => decide (x ∉ v)) (by simp [h1])]
      by_cases h2 : b = o
      · rw [List.filter_cons_of_neg (by simp [h2])]; simp only [List.length_cons]; omega
      · rw [List.filter_cons_of_pos (by simp [h1, h2])]; simp only [List.length_cons]; omega

private theorem filter_lt {o : ObjId} {v : List ObjId} (hv : o ∉ v) : ∀ l : List ObjId, o ∈ l →
    (l.filter (· ∉ v ++ [o])).length < (l.filter (· ∉ v)).length := by
  intro l
  induction l with
  | nil => simp
  | cons a l ih =>
    intro hm
    by_cases ha : a = o
    · subst ha
      rw [List.filter_cons_of_neg (by simp), List.filter_cons_of_pos (by simp [hv])]
      have := filter_le (o := a) (v := v) l
      simp only [List.length_cons]; omega
    · have hm' : o ∈ l := by
        rcases List.mem_cons.1 hm with h | h
        · exact absurd h.symm ha
        · exact h
      have := ih hm'
      by_cases h1 : a ∈ v
      · rw [List.filter_cons_of_neg (by simp [h1]), List.filter_cons_of_neg (by simp [h1])]; exact this
      · rw [List.filter_cons_of_pos (a := a) (p := fun x => decide (x ∉ v)) (by simp [h1]),
          List.filter_cons_of_pos (by simp [h1, ha])]
        simp only [List.length_cons]; omega

theorem remaining_lt {st : TaintState} {o : ObjId} (hu : o ∈ candidates env param) (hv : o ∉ st.visited) :
    remaining env param { st with visited := st.visited ++ [o] } < remaining env param st :=
  filter_lt hv _ hu

section
variable {P : Stop → Prop} {follow : Ident → TaintState → Except Stop TaintState} {n : Nat}

theorem Fine.trans {st st₁ : TaintState} {r : Except Stop TaintState} (h : ∀ o ∈ st.visited, o ∈ st₁.visited)
    (h' : Fine P st₁ r) : Fine P st r := by
  cases r with
  | ok st' => exact fun o ho => h' o (h o ho)
  | error e => exact h'

variable (env param P) in
/-- Following is fine whenever at most `n` objects remain. -/
def FollowFine (n : Nat) (follow : Ident → TaintState → Except Stop TaintState) : Prop :=
  ∀ i st, remaining env param st ≤ n → Fine P st (follow i st)

theorem processAssignedExpr_fine (hf : FollowFine env param P n follow) (e : Node) (st : TaintState)
    (hr : remaining env param st ≤ n) : Fine P st (processAssignedExpr env follow e st) := by
  unfold processAssignedExpr
  split
  · split
    · exact fun o h => h
    · split
      · exact hf _ _ hr
      · exact fun o h => h
  · exact fun o h => h

theorem findValueInSpec_fine (hf : FollowFine env param P n follow) (o : ObjId)
    (names : List Ident) (values : List Node) (st : TaintState) (hr : remaining env param st ≤ n) :
    ∀ (ns pre : List Ident), names = pre ++ ns →
      Fine P st (findValueInSpec env follow o names values pre.length ns st) := by
  intro ns
  induction ns with
  | nil => intro pre _; exact fun o h => h
  | cons m ns ih =>
    intro pre hn
    unfold findValueInSpec
    split
    · split
      · rename_i hlen
        split
        · exact processAssignedExpr_fine hf _ _ hr
        · rename_i hv
          have : pre.length < values.length := by rw [hlen, hn]; simp
          rw [List.getElem?_eq_getElem this] at hv
          cases hv
      · split
        · exact fun o h => h
        · exact fun o h => h
    · have := ih (pre ++ [m]) (by simp [hn])
      simpa using this

theorem processInitValue_fine (hf : FollowFine env param P n follow) (o : ObjId) (st : TaintState)
    (hr : remaining env param st ≤ n) : Fine P st (processInitValue env follow o st) := by
  unfold processInitValue
  split
  · split
    · exact fun o h => h
    · exact findValueInSpec_fine hf o _ _ st hr _ [] rfl
  · exact fun o h => h

theorem processAssignment_fine (hf : FollowFine env param P n follow) (o : ObjId) (lhs rhs : List Node)
    (hok : (lhs ≠ [] → rhs ≠ []) ∨ ∀ loc, P (.panic loc)) :
    ∀ (ls pre : List Node) (st : TaintState), lhs = pre ++ ls → remaining env param st ≤ n →
      Fine P st (processAssignment env follow o lhs rhs pre.length ls st) := by
  intro ls
  induction ls with
  | nil => intro pre st _ _; exact fun o h => h
  | cons l ls ih =>
    intro pre st hl hr
    have next : ∀ st₁ : TaintState, (∀ o ∈ st.visited, o ∈ st₁.visited) →
        Fine P st (processAssignment env follow o lhs rhs (pre.length + 1) ls st₁) := by
      intro st₁ h
      have := ih (pre ++ [l]) st₁ (by simp [hl]) (Nat.le_trans (remaining_le h) hr)
      rw [show (pre ++ [l]).length = pre.length + 1 by simp] at this
      exact this.trans h
    unfold processAssignment
    split
    · split
      · by_cases hlen : lhs.length = rhs.length
        · rw [if_neg (by simp [hlen])]
          have hlt : pre.length < rhs.length := by rw [← hlen, hl]; simp
          rw [List.getElem?_eq_getElem hlt]
          simp only
          have := processAssignedExpr_fine hf rhs[pre.length] st hr
          cases hp : processAssignedExpr env follow rhs[pre.length] st with
          | ok st₁ => rw [hp] at this; exact next st₁ this
          | error e => rw [hp] at this; exact this
        · rw [if_pos hlen]
          cases rhs with
          | nil =>
            rcases hok with hok | hok
            · exact absurd rfl (hok (by rw [hl]; simp))
            · exact hok _
          | cons r rs => exact next _ (fun o h => h)
      · exact next st (fun o h => h)
    · exact next st (fun o h => h)

theorem blockParams_fine : ∀ (is : List Ident) (st : TaintState),
    ((∀ i ∈ is, i.obj ≠ none) ∨ ∀ loc, P (.panic loc)) → Fine P st (blockParams is st) := by
  intro is
  induction is with
  | nil => intro st _; exact fun o h => h
  | cons i is ih =>
    intro st hok
    unfold blockParams
    cases ho : i.obj with
    | none =>
      rcases hok with hok | hok
      · exact absurd ho (hok i (by simp))
      · exact hok _
    | some o =>
      simp only
      refine Fine.trans (st₁ := { st with blocked := st.blocked ++ [o] }) (fun o h => h) (ih _ ?_)
      rcases hok with hok | hok
      · exact .inl (fun j hj => hok j (by simp [hj]))
      · exact .inr hok

theorem processNodes_fine (hf : FollowFine env param P n follow) (o : ObjId)
    (hok : BodyOk body ∨ ∀ loc, P (.panic loc)) :
    ∀ (ns : List Node) (st : TaintState), (∀ m ∈ ns, Occurs m body) → remaining env param st ≤ n →
      Fine P st (processNodes env follow o ns st) := by
  intro ns
  induction ns with
  | nil => intro st _ _; exact fun o h => h
  | cons m ns ih =>
    intro st hocc hr
    have next : ∀ r : Except Stop TaintState, Fine P st r →
        Fine P st (match r with | .ok st => processNodes env follow o ns st | .error e => .error e) := by
      intro r h
      cases r with
      | ok st₁ => exact (ih st₁ (fun m hm => hocc m (by simp [hm])) (Nat.le_trans (remaining_le h) hr)).trans h
      | error e => exact h
    unfold processNodes
    refine next _ ?_
    cases m with
    | funcLit id fn type b =>
      refine blockParams_fine _ _ ?_
      rcases hok with hok | hok
      · exact .inl (hok.params id fn type b (hocc _ (by simp)))
      · exact .inr hok
    | assign id lhs rhs =>
      refine processAssignment_fine hf o lhs rhs ?_ lhs [] st rfl hr
      rcases hok with hok | hok
      · exact .inl (hok.assigns id lhs rhs (hocc _ (by simp)))
      · exact .inr hok
    | _ => exact fun o h => h

end

theorem findSpread_fine {P : Stop → Prop} (hok : BodyOk body ∨ ∀ loc, P (.panic loc)) :
    ∀ fuel, ∀ i st, remaining env param st < fuel →
      Fine P st (findSpread env function body param fuel i st) := by
  intro fuel
  induction fuel with
  | zero => intro i st h; omega
  | succ fuel ih =>
    intro i st hr
    unfold findSpread
    simp only
    cases ho : i.obj with
    | none =>
      simp only
      split
      · exact fun o h => h
      · split <;> exact fun o h => h
    | some o =>
      simp only
      split
      · exact fun o h => h
      · rename_i hc
        split
        · exact fun o h => h
        · rename_i hname
          split
          · exact fun o h => h
          · rename_i hv
            have hu : o ∈ candidates env param := by
              unfold candidates
              simp only [List.mem_append, List.mem_range, Option.mem_toList]
              by_cases hp : param = some o
              · exact .inr hp
              · refine .inl ?_
                have hout : isIdentOriginOutsideFunctionScope env function i = false := by
                  cases hb : isIdentOriginOutsideFunctionScope env function i with
                  | false => rfl
                  | true =>
                    exfalso
                    apply hc
                    refine ⟨by simp [hb], ?_⟩
                    exact .inr hp
                rw [outside_iff] at hout
                rcases hout with hn | ⟨o', ho', h1, h2⟩
                · exact absurd hn hname
                · rw [ho] at ho'; cases ho'
                  refine Decidable.byContradiction fun hlt => ?_
                  simp [Env.object, List.getD, List.getElem?_eq_none (Nat.le_of_not_lt hlt)] at h1
            have hlt := remaining_lt (env := env) (param := param) hu hv
            have hf : FollowFine env param P (remaining env param { st with visited := st.visited ++ [o] })
                (findSpread env function body param fuel) :=
              fun i st' h => ih i st' (by omega)
            have hinit := processInitValue_fine hf o { st with visited := st.visited ++ [o] } (Nat.le_refl _)
            cases hp : processInitValue env (findSpread env function body param fuel) o
                { st with visited := st.visited ++ [o] } with
            | error e => rw [hp] at hinit; exact hinit
            | ok st₁ =>
              rw [hp] at hinit
              refine Fine.trans (st₁ := st₁) (fun a ha => hinit a (by simp [ha])) ?_
              exact processNodes_fine hf o hok _ st₁ (fun m hm => (mem_inspectList _ _ _).1 hm)
                (remaining_le hinit)

variable (env param) in
/-- Enough fuel for tracking a variable. -/
def enough : Nat := env.objects.length + 2

theorem remaining_lt_enough (st : TaintState) : remaining env param st < enough env := by
  unfold remaining candidates enough
  refine Nat.lt_of_le_of_lt (List.length_filter_le _ _) ?_
  cases param <;> simp

/-- Tracking a variable terminates. -/
theorem run_terminates (visited : List ObjId) (i : Ident) :
    run env function body param (enough env) visited i ≠ .error .outOfFuel := by
  intro h
  have := findSpread_fine (env := env) (function := function) (body := body) (param := param)
    (P := fun e => e ≠ .outOfFuel) (.inr (by simp)) (enough env) i ⟨visited, [], [], [], []⟩ (remaining_lt_enough _)
  unfold run at h
  rw [h] at this
  exact this rfl

/-- Tracking a variable does not panic in bodies the parser can produce, and forgets no visited object. -/
theorem run_ok (hb : BodyOk body) (visited : List ObjId) (i : Ident) :
    ∃ r, run env function body param (enough env) visited i = .ok r ∧ ∀ o ∈ visited, o ∈ r.visited := by
  have := findSpread_fine (env := env) (function := function) (body := body) (param := param)
    (P := fun _ => False) (.inl hb) (enough env) i ⟨visited, [], [], [], []⟩ (remaining_lt_enough _)
  unfold run
  cases h : findSpread env function body param (enough env) i ⟨visited, [], [], [], []⟩ with
  | ok r => rw [h] at this; exact ⟨r, rfl, this⟩
  | error e => rw [h] at this; exact this.elim

end Taint
end Serum
