import Verif.AnalyseLeaves
import Verif.CallGraphAll
import Verif.FieldLemmas
import Verif.Props.CallGraph
import Verif.Props.Annotations
import Verif.Props.ErrorTypes

/-!
# C10, C21, C25, C30, C39: what is found in function bodies

`Analyse.plan env fuel f` is what the analyzer does with the body of `f` (as a `Plan`: set operations,
diagnostics and calls); `(plan).Yields ρ c` says that code `c` comes out of it when each called function
`g` has the codes `ρ g`.
-/

namespace Serum.Props.Bodies
open Flow Taint Analyse CodeFormat

/-! ## C39 — only well-formed codes are found -/

/-- Imported facts have well-formed codes only. -/
structure WellFormedFacts (facts : Facts) : Prop where
  codes : ∀ o s, facts.codes o = some s → ∀ c ∈ s, WellFormed c
  types : ∀ o t, facts.errorType o = some t → ∀ c ∈ t.codes, WellFormed c

theorem errorType_wellFormed {env : Env} (hf : WellFormedFacts env.facts) {t : GoType} {et : ErrorType}
    (h : env.getErrorTypeForError t = some et) : ∀ c ∈ et.codes, WellFormed c := by
  unfold Env.getErrorTypeForError at h
  split at h
  · cases h
  · exact hf.types _ _ h

theorem steps_wellFormed (env : Env) (hp : PrintsAscii env.isPrint) (hf : WellFormedFacts env.facts) (f : FnId) :
    StepProp env f (fun l => ∀ s, l = .codes s → ∀ c ∈ s, WellFormed c) := by
  have code : ∀ e c, (extractErrorCodeFromStringExpression env f e).1 = some c → WellFormed c :=
    fun e c h => (ErrorTypes.extract_some hp h).2.1
  refine ⟨?_, ?_, ?_, ?_, ?_, ?_, ?_, ?_, ?_, ?_, ?_, ?_, ?_⟩
  · rintro s h; cases h; simp
  · rintro d _ s h; cases h
  · rintro body e j _ _ _ _ s h; cases h
  · rintro d s h; cases h
  · rintro d s h; cases h
  · rintro d s h; cases h
  · rintro e c h s hs; cases hs
    intro c' hc'
    rw [List.mem_singleton.1 hc']; exact code e c h
  · rintro e s h; cases h
    unfold extractErrorCodesFromAffector
    split
    · simp
    · split
      · simp
      · rename_i et het
        have h0 : ∀ c ∈ CodeSet.union [] (CodeSet.ofSlice et.codes), WellFormed c := by
          intro c hc
          rw [CodeSet.mem_union, CodeSet.mem_ofSlice] at hc
          rcases hc with hc | hc
          · simp at hc
          · exact errorType_wellFormed hf het c hc
        dsimp only
        split
        · exact h0
        · split
          · rename_i field _ _ code' ds hcode
            intro c hc
            rw [CodeSet.mem_add] at hc
            rcases hc with hc | rfl
            · exact h0 c hc
            · unfold extractFieldErrorCode at hcode
              split at hcode
              · cases hcode
              · rename_i fe ds' _
                simp only [Prod.mk.injEq] at hcode
                exact code fe c hcode.1
          · exact h0
  · rintro fn s h; cases h
    unfold extractErrorCodesFromTypeConversion
    split
    · simp
    · rename_i et het
      intro c hc
      rw [CodeSet.mem_ofSlice] at hc
      exact errorType_wellFormed hf het c hc
  · rintro o s h s' hs; cases hs; exact hf.codes o s h
  · rintro body fuel x h s hs; cases hs
    have loop : ∀ es : List Node, ∀ c ∈ (codesOfExpressions env f es).1, WellFormed c := by
      intro es
      induction es with
      | nil => simp [codesOfExpressions]
      | cons e es ih =>
        intro c hc
        simp only [codesOfExpressions] at hc
        split at hc
        · rename_i code' hcode
          rw [CodeSet.mem_union, List.mem_singleton] at hc
          rcases hc with rfl | hc
          · exact code e c hcode
          · exact ih c hc
        · exact ih c hc
    unfold extractErrorCodesFromConstructor at h
    split at h
    · cases h; simp
    · split at h
      · cases h
      · split at h
        · cases h
        · cases h
          exact loop _
  · rintro id a ha ho s hs; cases hs
    exact (Annotations.annotation_codes_wellFormed _ a ha).2.2 ho
  · rintro id a ha s hs; cases hs
    exact (Annotations.annotation_codes_wellFormed _ a ha).1

theorem plan_wellFormed (env : Env) (hp : PrintsAscii env.isPrint) (hf : WellFormedFacts env.facts) (fuel : Nat) (f : FnId) :
    Search.CodesAll WellFormed (plan env fuel f) := by
  intro s hs
  exact (steps_wellFormed env hp hf f).plan (fuel := fuel) _ hs s rfl

/-- **C39.** Whatever the program: every code a function is compared with, and every cached code, is
well-formed, provided imported facts are. -/
theorem found_wellFormed (env : Env) (hp : PrintsAscii env.isPrint) (hf : WellFormedFacts env.facts) (fuel depth : Nat)
    (order : List FnId) (results : List (FnId × CodeSet)) (st : Search FnId Diag)
    (h : Search.findAll (plan env fuel) depth order Search.start = .ok (results, st)) :
    (∀ f S, (f, S) ∈ results → ∀ c ∈ S, WellFormed c) ∧ (∀ f S, st.found f = some S → ∀ c ∈ S, WellFormed c) :=
  Search.findAll_all (fun f => plan_wellFormed env hp hf fuel f) depth order _ (by intro f s h; cases h) _ _ h

/-! ## C21 — the analysis terminates -/

/-- A finite list with all functions that can come up. -/
def allFunctions (env : Env) (fuel : Nat) : List FnId :=
  List.range env.funcs.length ++ (List.range env.funcs.length).flatMap fun f => (plan env fuel f).targets

theorem targets_outside {env : Env} {fuel : Nat} {f : FnId} (h : env.funcs.length ≤ f) : (plan env fuel f).targets = [] := by
  have : (env.func f).body = none := by
    unfold Env.func
    rw [List.getD_eq_getElem?_getD, List.getElem?_eq_none h]
    rfl
  unfold plan bodyPlan
  simp [this, Plan.targets]

theorem closed_in (env : Env) (fuel : Nat) (order : List FnId) :
    CallGraph.ClosedIn (plan env fuel) (order ++ allFunctions env fuel ++ order.flatMap fun f => (plan env fuel f).targets) := by
  intro f _ g hg
  unfold Calls at hg
  by_cases hlt : f < env.funcs.length
  · simp only [List.mem_append, allFunctions]
    exact .inl (.inr (.inr (List.mem_flatMap.2 ⟨f, List.mem_range.2 hlt, hg⟩)))
  · rw [targets_outside (Nat.le_of_not_lt hlt)] at hg; cases hg

/-- **C21.** Whatever recursion, variable cycles and nesting the program has: looking at each function body
ends (with recursion depth at most the number of objects + 4), and so does the search over all functions,
in whatever order it is started. -/
theorem analysis_terminates (env : Env) (hc : ∀ f body, (env.func f).body = some body → ConstOk env body)
    (fuel : Nat) (hf : bound env ≤ fuel) (order : List FnId) :
    (∀ f, bodyPlan env fuel f ≠ .error .outOfFuel) ∧
    ∃ depth, ∀ depth' ≥ depth, Search.findAll (plan env fuel) depth' order Search.start ≠ .error .outOfFuel := by
  refine ⟨fun f h => ?_, (order ++ allFunctions env fuel ++ order.flatMap fun f => (plan env fuel f).targets).length + 1,
    fun depth' hd => ?_⟩
  · obtain ⟨p, hp⟩ := bodyPlan_ok (hc f) hf
    rw [h] at hp; cases hp
  · exact Search.findAll_fuelled (closed_in env fuel order) (Nat.lt_of_lt_of_le (Nat.lt_succ_self _) hd) order _
      (fun f hf => by simp [hf])

/-! ## C10 — annotations affect their own return statement only -/

/-- The same program, every return statement except `r` having the annotation `Error Codes =` (no codes). -/
def alone (env : Env) (r : Option NodeId) : Env :=
  { env with comments := fun id => if r = some id then env.comments id else [b!"Error Codes ="] }

theorem silenced : getReturnStmtAnnotations [b!"Error Codes ="] = (some ⟨true, [], [], []⟩, []) := by decide +kernel

section
variable (env : Env) (r : Option NodeId) (f : FnId) (body : List Node) (fuel : Nat)

set_option smartUnfolding false in
theorem alone_terminal : terminal (alone env r) = terminal env := rfl
set_option smartUnfolding false in
theorem alone_terminalD : terminalD (alone env r) = terminalD env := rfl
set_option smartUnfolding false in
theorem alone_fields : fieldAssignments (alone env r) = fieldAssignments env := rfl
set_option smartUnfolding false in
theorem alone_constructor : extractErrorCodesFromConstructor (alone env r) = extractErrorCodesFromConstructor env := rfl

variable {env r f body fuel}

theorem alone_errExpr {R : Node → Prop} {e : Node} : ErrExprFrom (alone env r) f body R e ↔ ErrExprFrom env f body R e := by
  constructor
  · intro h
    induction h with
    | root h => exact .root h
    | assigned _ hv hs ih => exact .assigned ih hv hs
    | asserted _ hv hd hu ih => exact .asserted ih hv hd hu
  · intro h
    induction h with
    | root h => exact .root h
    | assigned _ hv hs ih => exact .assigned (env := alone env r) ih hv hs
    | asserted _ hv hd hu ih => exact .asserted (env := alone env r) ih hv hd hu

theorem alone_errStart {R : Node → Prop} {e : Node} (h : ErrStartFrom (alone env r) f body R e) : ErrStartFrom env f body R e := by
  cases h with
  | root h => exact .root h
  | assigned h1 h2 h3 h4 => exact .assigned (alone_errExpr.1 h1) h2 h3 h4
  | asserted h1 h2 h3 h4 => exact .asserted (alone_errExpr.1 h1) h2 h3 h4

theorem alone_errVar {R : Node → Prop} {x : ObjId} : ErrVarFrom (alone env r) f body R x ↔ ErrVarFrom env f body R x :=
  ⟨fun ⟨e, i, he, hv⟩ => ⟨e, i, alone_errExpr.1 he, hv⟩, fun ⟨e, i, he, hv⟩ => ⟨e, i, alone_errExpr.2 he, hv⟩⟩

theorem alone_just {R : Node → Prop} {l : BodyPlan} : Just (alone env r) f body fuel R l ↔ Just env f body fuel R l := by
  constructor
  · rintro (h | ⟨he, ht, hl⟩ | ⟨hx, hd, ht, hl⟩ | ⟨he, hi, hn, hl⟩)
    · exact .empty h
    · exact .terminal (alone_errExpr.1 he) ((congrFun (congrFun (congrFun (congrFun (alone_terminal env r) _) _) _) _).symm.trans ht) hl
    · exact .destruct (alone_errVar.1 hx) hd ((congrFun (congrFun (congrFun (congrFun (alone_terminalD env r) _) _) _) _).symm.trans ht) hl
    · exact .outOfScope (alone_errExpr.1 he) hi hn hl
  · rintro (h | ⟨he, ht, hl⟩ | ⟨hx, hd, ht, hl⟩ | ⟨he, hi, hn, hl⟩)
    · exact .empty h
    · exact .terminal (alone_errExpr.2 he) ((congrFun (congrFun (congrFun (congrFun (alone_terminal env r) _) _) _) _).trans ht) hl
    · exact .destruct (env := alone env r) (alone_errVar.2 hx) hd ((congrFun (congrFun (congrFun (congrFun (alone_terminalD env r) _) _) _) _).trans ht) hl
    · exact .outOfScope (env := alone env r) (alone_errExpr.2 he) hi hn hl

theorem alone_other {id : NodeId} (h : r ≠ some id) :
    getReturnStmtAnnotations ((alone env r).comments id) = (some ⟨true, [], [], []⟩, []) := by
  show getReturnStmtAnnotations (if r = some id then _ else _) = _
  rw [if_neg h, silenced]

theorem alone_same {id : NodeId} (h : r = some id) : (alone env r).comments id = env.comments id := by
  show (if r = some id then _ else _) = _
  rw [if_pos h]

theorem alone_returns {id : NodeId} {results : List Node} :
    Returns (alone env r) body id results ↔ r = some id ∧ Returns env body id results := by
  by_cases h : r = some id
  · unfold Returns
    rw [alone_same h]
    simp [h]
  · simp only [h, false_and, iff_false]
    intro hr
    have := hr.2 _ (by rw [alone_other h])
    cases this

theorem alone_removed {id : NodeId} (h : r = some id) : Removed (alone env r) id = Removed env id := by
  unfold Removed; rw [alone_same h]

theorem alone_chain {x p : ObjId} (h : InitChain (alone env r) x p) : InitChain env x p := by
  induction h with
  | refl x => exact .refl x
  | step hi hv _ ih => exact .step hi hv ih

theorem alone_scope (hs : ScopeOk env f body) : ScopeOk (alone env r) f body where
  before := fun pre id lhs rhs post h n hn i y p hv hc hl => hs.before pre id lhs rhs post h n hn i y p hv (alone_chain hc) hl
  clean := fun e i he hi x p ho hc =>
    hs.clean e i ((alone_errStart he).mono fun _ ⟨id, results, hr, h⟩ => ⟨id, results, (alone_returns.1 hr).2, h⟩) hi x p ho
      (alone_chain hc)

theorem alone_separate : Separate (alone env r) f body := by
  intro id results id' results' x h h' hne
  have h1 := (alone_returns.1 h).1
  have h2 := (alone_returns.1 h').1
  rw [h1] at h2; cases h2; exact absurd rfl hne

theorem alone_yields {ρ : FnId → GoString → Prop} {id : NodeId} {results : List Node} {c : GoString} :
    ReturnYields (alone env r) f body fuel ρ id results c ↔ r = some id ∧ ReturnYields env f body fuel ρ id results c := by
  constructor
  · rintro (⟨ha, ho, hc⟩ | ⟨ha, ho, hc⟩ | ⟨hr, hj, hc, hn⟩)
    · by_cases h : r = some id
      · rw [alone_same h] at ha; exact ⟨h, .overwrite ha ho hc⟩
      · rw [alone_other h] at ha; cases ha; simp at hc
    · by_cases h : r = some id
      · rw [alone_same h] at ha; exact ⟨h, .add ha ho hc⟩
      · rw [alone_other h] at ha; cases ha; simp at ho
    · obtain ⟨h, hr⟩ := alone_returns.1 hr
      rw [alone_removed h] at hn
      exact ⟨h, .flow hr (alone_just.1 hj) hc hn⟩
  · rintro ⟨h, ⟨ha, ho, hc⟩ | ⟨ha, ho, hc⟩ | ⟨hr, hj, hc, hn⟩⟩
    · exact .overwrite (by rw [alone_same h]; exact ha) ho hc
    · exact .add (by rw [alone_same h]; exact ha) ho hc
    · exact .flow (alone_returns.2 ⟨h, hr⟩) (alone_just.2 hj) hc (by rw [alone_removed h]; exact hn)

end

/-- **C10**, partial.  Each return statement contributes exactly what it would contribute if all other
return statements were annotated to return no codes: what comes out of the function is the union of what
comes out for each return statement alone (`r = none`: the codes not coming from return statements).

Missing: functions in which a variable flows into two return statements, one of which removes codes
(`Separate`); there the claim is false, see `annotation_leaks`. -/
theorem returns_independent_partial (env : Env) (f : FnId) (body : List Node) (hbody : (env.func f).body = some body)
    (hs : ScopeOk env f body) (hb : BodyOk body) (hsep : Separate env f body) (hc : ConstOk env body) (fuel : Nat)
    (hf : bound env ≤ fuel) (ρ : FnId → GoString → Prop) (c : GoString) :
    (plan env fuel f).Yields ρ c ↔ ∃ r, (plan (alone env r) fuel f).Yields ρ c := by
  have henough : enough env ≤ fuel := by unfold bound at hf; unfold enough; omega
  have hok : ∀ r, ∃ p, bodyPlan (alone env r) fuel f = .ok p := fun r =>
    bodyPlan_ok (env := alone env r) (fun b hb' => by
      have : b = body := by
        have : (env.func f).body = some b := hb'
        rw [hbody] at this; cases this; rfl
      subst this; exact hc) hf
  obtain ⟨p, hp⟩ := bodyPlan_ok (f := f) (fun b hb' => by rw [hbody] at hb'; cases hb'; exact hc) hf
  have hplan : plan env fuel f = p := by simp [plan, hp]
  cases hparam : extractErrorCodesFromConstructor env f body fuel with
  | error e =>
    -- both panic
    have both : ∀ env' : Env, (env'.func f).body = some body → extractErrorCodesFromConstructor env' f body fuel = .error e →
        ∃ loc, plan env' fuel f = .panic loc := by
      intro env' h1 h2
      unfold plan bodyPlan
      simp only [h1, h2]
      cases e <;> exact ⟨_, rfl⟩
    obtain ⟨loc, h1⟩ := both env hbody hparam
    constructor
    · intro h; rw [h1] at h; exact h.elim
    · rintro ⟨r, h⟩
      obtain ⟨loc', h2⟩ := both (alone env r) hbody (by rw [alone_constructor]; exact hparam)
      rw [h2] at h; exact h.elim
  | ok paramCodes =>
    have hal : ∀ r, (plan (alone env r) fuel f).Yields ρ c ↔ c ∈ paramCodes.1 ∨
        (∃ id results, WithinList ofFunction (.ret id results) body ∧ r = some id ∧ ReturnYields env f body fuel ρ id results c) ∨
        (∃ x, (∃ id results, r = some id ∧ Returns env body id results ∧ ErrVarFrom env f body (ResultOf env f results) x) ∧
          (fieldAssignments env f x (Node.inspectList intoFields body)).Yields ρ c) := by
      intro r
      obtain ⟨q, hq⟩ := hok r
      have : plan (alone env r) fuel f = q := by simp [plan, hq]
      rw [this, bodyPlan_yields (env := alone env r) hbody (alone_scope hs) hb henough alone_separate
        (by rw [alone_constructor]; exact hparam) hq ρ c]
      refine or_congr Iff.rfl (or_congr ?_ ?_)
      · simp only [alone_yields]
      · rw [alone_fields]
        simp only [errVar_iff, alone_returns]
        constructor
        · rintro ⟨x, ⟨id, results, ⟨h1, h2⟩, h3⟩, h⟩
          exact ⟨x, ⟨id, results, h1, h2, alone_errVar.1 h3⟩, h⟩
        · rintro ⟨x, ⟨id, results, h1, h2, h3⟩, h⟩
          exact ⟨x, ⟨id, results, ⟨h1, h2⟩, alone_errVar.2 h3⟩, h⟩
    rw [hplan, bodyPlan_yields hbody hs hb henough hsep hparam hp ρ c]
    simp only [hal, errVar_iff]
    constructor
    · rintro (h | ⟨id, results, hw, h⟩ | ⟨x, ⟨id, results, h1, h2⟩, h⟩)
      · exact ⟨none, .inl h⟩
      · exact ⟨some id, .inr (.inl ⟨id, results, hw, rfl, h⟩)⟩
      · exact ⟨some id, .inr (.inr ⟨x, ⟨id, results, rfl, h1, h2⟩, h⟩)⟩
    · rintro ⟨r, h | ⟨id, results, hw, -, h⟩ | ⟨x, ⟨id, results, -, h1, h2⟩, h⟩⟩
      · exact .inl h
      · exact .inr (.inl ⟨id, results, hw, h⟩)
      · exact .inr (.inr ⟨x, ⟨id, results, h1, h2⟩, h⟩)

/-! ### Examples

```go
func f() error {
	a := New()
	b := New()
	if … {
		// Error Codes -= a-error
		return a
	}
	return a   // or: return b
}
```

`New` is a function of another package that declares `a-error` and `b-error`. -/

/-- The objects are `a` = 0 and `b` = 1; `second` is the variable of the second return statement. -/
def twoReturns (second : ObjId) : List Node :=
  [.assign 1 [.ident ⟨2, b!"a", some 0⟩] [.call 3 (.ident ⟨4, b!"New", none⟩) []],
   .assign 5 [.ident ⟨6, b!"b", some 1⟩] [.call 7 (.ident ⟨8, b!"New", none⟩) []],
   .other 9 [.ret 10 [.ident ⟨11, b!"a", some 0⟩]],
   .ret 12 [.ident ⟨13, b!"v", some second⟩]]

def twoEnv (second : ObjId) : Env :=
  { Tracking.plainEnv [⟨.var, 30, .other⟩, ⟨.var, 40, .other⟩] with
    funcs := [⟨100, some ⟨101, b!"f", none⟩, ⟨[], some [⟨[], 11⟩], 10⟩, some (twoReturns second), 20, 100⟩]
    callee := fun n => if n = 3 ∨ n = 7 then some 50 else none
    comments := fun n => if n = 10 then [b!"Error Codes -= a-error"] else []
    facts := ⟨fun o => if o = 50 then some [b!"a-error", b!"b-error"] else none, fun _ => none, fun _ => none, fun _ => none⟩ }

/-- **C10 does not hold of the code** when one variable is returned twice: the annotation of the first return
statement also removes `a-error` from the second one, although the second one alone yields it. -/
theorem annotation_leaks (ρ : FnId → GoString → Prop) :
    ¬ (plan (twoEnv 0) (bound (twoEnv 0)) 0).Yields ρ b!"a-error" ∧
    (plan (alone (twoEnv 0) (some 12)) (bound (twoEnv 0)) 0).Yields ρ b!"a-error" := by
  rw [Plan.yields_eval (by rfl), Plan.yields_eval (by rfl)]
  exact ⟨by decide +kernel, by decide +kernel⟩

theorem twoReturns_nodes (s : ObjId) : Node.inspectList (fun _ => true) (twoReturns s) =
    [.assign 1 [.ident ⟨2, b!"a", some 0⟩] [.call 3 (.ident ⟨4, b!"New", none⟩) []], .ident ⟨2, b!"a", some 0⟩,
     .call 3 (.ident ⟨4, b!"New", none⟩) [], .ident ⟨4, b!"New", none⟩,
     .assign 5 [.ident ⟨6, b!"b", some 1⟩] [.call 7 (.ident ⟨8, b!"New", none⟩) []], .ident ⟨6, b!"b", some 1⟩,
     .call 7 (.ident ⟨8, b!"New", none⟩) [], .ident ⟨8, b!"New", none⟩,
     .other 9 [.ret 10 [.ident ⟨11, b!"a", some 0⟩]], .ret 10 [.ident ⟨11, b!"a", some 0⟩], .ident ⟨11, b!"a", some 0⟩,
     .ret 12 [.ident ⟨13, b!"v", some s⟩], .ident ⟨13, b!"v", some s⟩] := rfl

theorem twoEnv_decl (s : ObjId) (v : ObjId) : ((twoEnv s).object v).decl = .other := by
  match v with
  | 0 => rfl
  | 1 => rfl
  | n + 2 => simp [Env.object, twoEnv, Tracking.plainEnv]

theorem twoReturns_source {s : ObjId} {v : ObjId} {e : Node} (h : Source (twoEnv s) (twoReturns s) v e) :
    ∃ id fn args, e = .call id fn args := by
  rcases h with ⟨_, _, _, _, hd, -⟩ | ⟨id, lhs, rhs, ho, hl, k, l, t, h1, h2, h3, h4⟩
  · rw [twoEnv_decl] at hd; cases hd
  · rw [Occurs, ← mem_inspectList, twoReturns_nodes] at ho
    simp only [List.mem_cons, List.not_mem_nil, or_false, reduceCtorEq, Node.assign.injEq, false_or] at ho
    rcases ho with ⟨rfl, rfl, rfl⟩ | ⟨rfl, rfl, rfl⟩ <;> match k with
    | 0 => simp at h4; exact ⟨_, _, _, h4.symm⟩
    | k + 1 => simp at h4

theorem twoReturns_parsed (s : ObjId) : BodyOk (twoReturns s) ∧ ConstOk (twoEnv s) (twoReturns s) ∧
    ScopeOk (twoEnv s) 0 (twoReturns s) := by
  have noLit : ∀ p, ¬ LitParam (twoReturns s) p := by
    rintro p ⟨id, fn, type, b, ho, -⟩
    rw [Occurs, ← mem_inspectList, twoReturns_nodes] at ho
    simp at ho
  refine ⟨⟨fun id fn type b ho => ?_, fun id lhs rhs ho _ => ?_⟩, ⟨fun _ => 0, fun _ => Nat.zero_le _, fun x e i o _ hs hu => ?_⟩,
    ⟨(Tracking.scope_of_noLits _ _ noLit).1, fun _ i _ _ => (Tracking.scope_of_noLits _ _ noLit).2 i⟩⟩
  · rw [Occurs, ← mem_inspectList, twoReturns_nodes] at ho
    simp at ho
  · rw [Occurs, ← mem_inspectList, twoReturns_nodes] at ho
    simp only [List.mem_cons, List.not_mem_nil, or_false, reduceCtorEq, Node.assign.injEq, false_or] at ho
    rcases ho with ⟨-, -, rfl⟩ | ⟨-, -, rfl⟩ <;> simp
  · obtain ⟨id, fn, args, rfl⟩ := twoReturns_source hs
    simp [Node.unparen] at hu

/-- The hypotheses of `returns_independent_partial` hold for the program that returns two variables (and its
first return statement does remove a code). -/
example : BodyOk (twoReturns 1) ∧ ConstOk (twoEnv 1) (twoReturns 1) ∧ ScopeOk (twoEnv 1) 0 (twoReturns 1) ∧
    Separate (twoEnv 1) 0 (twoReturns 1) ∧ Removed (twoEnv 1) 10 = [b!"a-error"] := by
  refine ⟨(twoReturns_parsed 1).1, (twoReturns_parsed 1).2.1, (twoReturns_parsed 1).2.2, ?_, by decide +kernel⟩
  -- only the returned variable itself flows into a return statement
  have var : ∀ id results x, Returns (twoEnv 1) (twoReturns 1) id results →
      ErrVarFrom (twoEnv 1) 0 (twoReturns 1) (ResultOf (twoEnv 1) 0 results) x → (id = 10 ∧ x = 0) ∨ (id = 12 ∧ x = 1) := by
    intro id results x hr ⟨e, i, he, hv⟩
    have hret : (id = 10 ∧ results = [.ident ⟨11, b!"a", some 0⟩]) ∨ (id = 12 ∧ results = [.ident ⟨13, b!"v", some 1⟩]) := by
      have ho := ErrorTypes.occurs_of_within hr.1
      rw [Occurs, ← mem_inspectList, twoReturns_nodes] at ho
      simpa only [List.mem_cons, List.not_mem_nil, or_false, reduceCtorEq, Node.ret.injEq, false_or] using ho
    have hexpr : ResultOf (twoEnv 1) 0 results e ∨ ∃ id fn args, e = .call id fn args := by
      cases he with
      | root h => exact .inl h
      | assigned _ _ hs => exact .inr (twoReturns_source hs)
      | asserted _ _ hd hu =>
        rcases hd with ⟨_, _, _, hd, -⟩ | ⟨id, lhs, rhs, ho, hl, -⟩
        · rw [twoEnv_decl] at hd; cases hd
        · rw [Occurs, ← mem_inspectList, twoReturns_nodes] at ho
          simp only [List.mem_cons, List.not_mem_nil, or_false, reduceCtorEq, Node.assign.injEq, false_or] at ho
          rcases ho with ⟨-, rfl, rfl⟩ | ⟨-, rfl, rfl⟩ <;> simp at hl
    rcases hexpr with h | ⟨_, _, _, rfl⟩
    · obtain ⟨hi, ho, -⟩ := hv
      rcases hret with ⟨rfl, rfl⟩ | ⟨rfl, rfl⟩ <;> simp only [← resultExpression_ok, resultExpression] at h <;> cases h <;>
        rcases hi with h | ⟨_, _, h, -⟩ | ⟨_, _, h⟩ <;> simp [Node.unparen] at h <;> subst h <;> simp at ho <;> simp [← ho]
    · rcases hv.1 with h | ⟨_, _, h, -⟩ | ⟨_, _, h⟩ <;> simp [Node.unparen] at h
  intro id results id' results' x hr hr' hne hx hx'
  rcases var id results x hr hx with ⟨h1, h2⟩ | ⟨h1, h2⟩ <;> rcases var id' results' x hr' hx' with ⟨h3, h4⟩ | ⟨h3, h4⟩
  · exact absurd (h1.trans h3.symm) hne
  · rw [h2] at h4; cases h4
  · rw [h2] at h4; cases h4
  · exact absurd (h1.trans h3.symm) hne

/-- The hypotheses of C39 (well-formed facts) hold for that program. -/
example : PrintsAscii (twoEnv 1).isPrint ∧ WellFormedFacts (twoEnv 1).facts := by
  refine ⟨fun _ _ => rfl, ⟨fun o s h c hc => ?_, fun o t h => by cases h⟩⟩
  simp only [twoEnv] at h
  split at h
  · cases h
    simp only [List.mem_cons, List.not_mem_nil, or_false] at hc
    rcases hc with rfl | rfl
    · exact (isErrorCodeValid_iff_wellFormed _).1 (by decide)
    · exact (isErrorCodeValid_iff_wellFormed _).1 (by decide)
  · cases h

/-- The hypothesis of C21 holds for that program. -/
example : ∀ f body, ((twoEnv 1).func f).body = some body → ConstOk (twoEnv 1) body := by
  intro f body h
  match f with
  | 0 => cases h; exact (twoReturns_parsed 1).2.1
  | f + 1 => simp [Env.func, twoEnv] at h

end Serum.Props.Bodies
