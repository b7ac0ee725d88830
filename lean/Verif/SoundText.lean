import Verif.Spec.Supported
import Verif.CallGraphPanics

/-! # Soundness, for the texts used as codes -/

namespace Serum
namespace Runtime
open Flow Analyse Taint Props.Calls Props.Extract Props.Claims

/-- A function of a silent run. -/
structure Fine (env : Env) (X : Extra) (fuel : Nat) (f : FnId) (body : List Node) : Prop where
  enough : bound env ≤ fuel
  ascii : PrintsAscii env.isPrint
  regular : Regular env f body
  separate : Separate env f body
  parsed : Parsed env X f body
  supported : Supported env X f body
  silent : (plan env fuel f).reports = []
  calm : (plan env fuel f).panics = false

variable {env : Env} {X : Extra} {fuel : Nat} {f : FnId} {body : List Node}

/-- A step that may occur in a silent run. -/
def Quiet (l : BodyPlan) : Prop := (∀ d, l ≠ .report d) ∧ ∀ s, l ≠ .panic s

theorem Fine.leaf (h : Fine env X fuel f body) {l : BodyPlan} (hl : l ∈ (plan env fuel f).leaves) : Quiet l := by
  refine ⟨?_, ?_⟩
  · rintro d rfl
    have := (Plan.mem_reports _).2 hl
    rw [h.silent] at this
    cases this
  · rintro s rfl
    have := (Plan.panics_iff _).2 ⟨s, hl⟩
    rw [h.calm] at this
    cases this

theorem Fine.param (h : Fine env X fuel f body) {x : Founds} (hx : extractErrorCodesFromConstructor env f body fuel = .ok x) :
    x.2 = [] ∧ ∀ ρ, ∀ c ∈ x.1, (plan env fuel f).Yields ρ c := by
  refine ⟨?_, fun ρ c hc => (h.regular.yields h.enough h.separate hx ρ c).2 (.inl hc)⟩
  cases hd : x.2 with
  | nil => rfl
  | cons d ds =>
    have hm : .report d ∈ (founds x).leaves := by
      simp only [founds, Plan.leaves, List.mem_append, reports_leaves]
      exact .inl (.inr ⟨d, by simp [hd], rfl⟩)
    exact absurd rfl ((h.leaf ((h.regular.leaves h.enough hx (by simp)).2 (.param hm))).1 d)

theorem codesOfExpressions_spec : ∀ es : List Node,
    (∀ d, d ∈ (codesOfExpressions env f es).2 ↔ ∃ e ∈ es, d ∈ (extractErrorCodeFromStringExpression env f e).2) ∧
    ∀ c, c ∈ (codesOfExpressions env f es).1 ↔ ∃ e ∈ es, (extractErrorCodeFromStringExpression env f e).1 = some c := by
  intro es
  induction es with
  | nil => simp [codesOfExpressions]
  | cons e es ih =>
    obtain ⟨ih1, ih2⟩ := ih
    rw [codesOfExpressions.eq_2]
    refine ⟨fun d => by simp [ih1], fun c => ?_⟩
    simp only [List.mem_cons, exists_eq_or_imp, ← ih2]
    cases hr : (extractErrorCodeFromStringExpression env f e).1 with
    | none => simp
    | some c' => simp [CodeSet.mem_union, eq_comm]

/-- What is known about the error code parameter of a constructor. -/
theorem Fine.constructor (h : Fine env X fuel f body) {p : Nat} (hp : importErrorConstructorFact env f = some p) :
    ∃ i, (paramNames (env.func f).type.params)[p]? = some i ∧ i.name ≠ b!"nil" ∧ ∀ x, i.obj = some x →
      (∀ y e, Tracked env (env.func f) body (some x) [] i y → Source env body y e → (¬ ∃ j z, VarUse env e j z) →
        (extractErrorCodeFromStringExpression env f e.unparen).2 = [] ∧
        ∀ c, (extractErrorCodeFromStringExpression env f e.unparen).1 = some c → ∀ ρ, (plan env fuel f).Yields ρ c) ∧
      (∀ y d, Tracked env (env.func f) body (some x) [] i y → ¬ Destructured env body y d) ∧
      (∀ y e j z, Tracked env (env.func f) body (some x) [] i y → Source env body y e → VarUse env e j z →
        Local env (env.func f) body (some x) j) := by
  obtain ⟨fs, hfs⟩ := h.regular.constructor h.enough
  obtain ⟨hsil, hy⟩ := h.param hfs
  have hnamed := getParamIdent_named (h.parsed.params (by simp [hp])) p
  unfold extractErrorCodesFromConstructor at hfs
  simp only [hp] at hfs
  cases hi : getParamIdent (env.func f).type p with
  | none => exact absurd hi (h.regular.ctor p hp)
  | some i =>
    have hi' : (paramNames (env.func f).type.params)[p]? = some i := by rw [← hnamed, hi]
    refine ⟨i, hi', h.parsed.nilParam p i hp hi', fun x hx => ?_⟩
    simp only [hi] at hfs
    cases hr : Taint.run env (env.func f) body i.obj fuel [] i with
    | error e => rw [hr] at hfs; cases hfs
    | ok t =>
      rw [hr] at hfs
      cases hfs
      simp only [List.append_eq_nil_iff, List.map_eq_nil_iff] at hsil
      obtain ⟨⟨h1, h2⟩, h3⟩ := hsil
      obtain ⟨-, s2, s3, s4⟩ := run_spec h.regular.scope.before hx (h.supported.paramClean p i hp hi') hr
      rw [hx] at s2 s3 s4
      obtain ⟨c1, c2⟩ := codesOfExpressions_spec (env := env) (f := f) t.expressions
      refine ⟨fun y e hty hsrc hnv => ?_, fun y d hty hd => ?_, fun y e j z hty hsrc hv => ?_⟩
      · have hm : e.unparen ∈ t.expressions := (s2 _).2 ⟨y, e, hty, hsrc, hnv, rfl⟩
        refine ⟨?_, fun c hc ρ => hy ρ c ((c2 c).2 ⟨_, hm, hc⟩)⟩
        refine List.eq_nil_iff_forall_not_mem.2 fun d hd => ?_
        have := (c1 d).2 ⟨_, hm, hd⟩
        rw [h3] at this
        cases this
      · have := (s3 d).2 ⟨y, hty, hd⟩
        rw [h2] at this
        cases this
      · refine Classical.byContradiction fun hn => ?_
        have := (s4 j).2 ⟨hn, .inr ⟨y, e, z, hty, hsrc, hv⟩⟩
        rw [h1] at this
        cases this

/-- The position of the error code parameter denotes the parameter at this position. -/
theorem paramPosition {type : FuncType} (hn : AllNamed type.params) {i : Ident} {p : Nat}
    (h : getParamPosition type i = some p) : ∃ j o, (paramNames type.params)[p]? = some j ∧ j.obj = some o ∧ i.obj = some o := by
  unfold getParamPosition at h
  split at h
  · cases h
  · rename_i o ho
    rw [paramPositionLoop_named hn] at h
    simp only [Nat.zero_add, Option.map_id'] at h
    rw [List.findIdx?_eq_some_iff_getElem] at h
    obtain ⟨hlt, hx, -⟩ := h
    exact ⟨_, o, List.getElem?_eq_getElem hlt, by simpa using hx, ho⟩

/-- A silent use of a text that is not constant uses the error code parameter. -/
theorem extract_param {e : Node} (hv : ∀ s, env.value e.id ≠ some (.str s))
    (hs : (extractErrorCodeFromStringExpression env f e).2 = []) :
    ∃ i p, e.unparen = .ident i ∧ getParamPosition (env.func f).type i = some p ∧ importErrorConstructorFact env f = some p := by
  unfold extractErrorCodeFromStringExpression at hs
  split at hs
  · rename_i v hval
    cases v with
    | str s => exact absurd hval (hv s)
    | other => simp [getErrorCodeFromConstant] at hs
  · split at hs
    · rename_i i hi
      split at hs
      · rename_i p hp
        simp only [checkIfExprIsErrorCodeParam] at hs
        by_cases hc : importErrorConstructorFact env f = some p
        · exact ⟨i, p, hi, hp, hc⟩
        · simp [hc] at hs
      · simp at hs
    · simp at hs

theorem unparen_idem : ∀ e : Node, e.unparen.unparen = e.unparen := by
  intro e
  match e with
  | .paren _ x => simpa [Node.unparen] using unparen_idem x
  | .ident _ | .basicLit _ | .compositeLit .. | .keyValue .. | .funcLit .. | .selector .. | .index .. | .typeAssert ..
  | .call .. | .unary .. | .assign .. | .ret .. | .valueSpec .. | .typeSwitch .. | .caseClause .. | .range .. | .send ..
  | .other .. => rfl

theorem extract_unparen {e : Node} (hv : env.value e.unparen.id = env.value e.id)
    (hs : (extractErrorCodeFromStringExpression env f e.unparen).2 = []) :
    (extractErrorCodeFromStringExpression env f e).2 = [] ∧
    (extractErrorCodeFromStringExpression env f e).1 = (extractErrorCodeFromStringExpression env f e.unparen).1 := by
  unfold extractErrorCodeFromStringExpression at hs ⊢
  rw [hv, unparen_idem] at *
  repeat' split at hs
  all_goals simp_all

/-- The texts of a silent function: of expressions used as code, and of the variables assigned to the error code
parameter. -/
theorem Fine.text (h : Fine env X fuel f body) {arg : GoString} {place : Place} {s : GoString}
    (ht : Text env X f body arg place s) :
    (∀ e, place = .expr e → (extractErrorCodeFromStringExpression env f e).2 = [] →
      s = [] ∨ (extractErrorCodeFromStringExpression env f e).1 = some s ∨ (∀ ρ, (plan env fuel f).Yields ρ s) ∨
        (importErrorConstructorFact env f ≠ none ∧ s = arg)) ∧
    (∀ y p i x, importErrorConstructorFact env f = some p → (paramNames (env.func f).type.params)[p]? = some i →
      i.obj = some x → Tracked env (env.func f) body (some x) [] i y →
      (place = .var y ∨ ∃ e j z, Source env body z e ∧ place = .expr e ∧ VarUse env e j y) →
      s = [] ∨ (∀ ρ, (plan env fuel f).Yields ρ s) ∨ s = arg) := by
  -- a tracked variable is the parameter or declared in the function
  have hdecl : ∀ y p i x, importErrorConstructorFact env f = some p → (paramNames (env.func f).type.params)[p]? = some i →
      i.obj = some x → Tracked env (env.func f) body (some x) [] i y → CodeParam env f y ∨ Declared env f y := by
    intro y p i x hp hi hx hty
    have loc : ∀ j y, Local env (env.func f) body (some x) j → j.obj = some y → j.name ≠ b!"nil" →
        CodeParam env f y ∨ Declared env f y := by
      intro j y hl hj hn
      rcases hl with ⟨-, hl⟩ | ⟨hl | ⟨o, ho, h1, h2⟩, -⟩
      · refine .inl ⟨p, i, hp, hi, ?_⟩
        rw [hx, hl, hj]
      · exact absurd hl hn
      · rw [hj] at ho; cases ho; exact .inr ⟨h1, h2⟩
    cases hty with
    | start h1 h2 h3 _ => exact loc _ _ h3 h1 h2
    | step _ _ hv h1 h2 _ => exact loc _ _ h2 hv.2.1 h1
  have root : ∀ p i x, importErrorConstructorFact env f = some p → (paramNames (env.func f).type.params)[p]? = some i →
      i.obj = some x → Tracked env (env.func f) body (some x) [] i x := fun p i x hp hi hx =>
    .start hx (h.parsed.nilParam p i hp hi) (.inl ⟨by simp, hx.symm⟩) (by simp)
  induction ht with
  | @constant e s hv =>
    refine ⟨fun e' he hs => ?_, fun y p i x hp hi hx hty hpl => ?_⟩
    · cases he
      obtain ⟨-, h2, -⟩ := constant_collected env h.ascii f e _ hv
      obtain ⟨h1, -, -⟩ := constant_collected env h.ascii f e _ hv
      rcases h2.1 hs with h' | ⟨c, hc⟩
      · cases h'; exact .inl rfl
      · have := (h1 c hc).1
        cases this
        exact .inr (.inl hc)
    · rcases hpl with hpl | ⟨e', j, z, hsrc, he, hvu⟩
      · cases hpl
      · cases he
        exact absurd hv (h.parsed.variables z e j y hsrc hvu s)
  | @read e i' x' s hv hu ho _ ih =>
    refine ⟨fun e' he hs => ?_, fun y p i x hp hi hx hty hpl => ?_⟩
    · cases he
      obtain ⟨i, p, hi, hpos, hfact⟩ := extract_param hv hs
      rw [hu] at hi
      cases hi
      obtain ⟨j, o, hj, hjo, hio⟩ := paramPosition (h.parsed.params (by simp [hfact])) hpos
      rw [ho] at hio
      cases hio
      rcases ih.2 x' p j x' hfact hj hjo (root p j x' hfact hj hjo) (.inl rfl) with h' | h' | h'
      · exact .inl h'
      · exact .inr (.inr (.inl h'))
      · exact .inr (.inr (.inr ⟨by simp [hfact], h'⟩))
    · rcases hpl with hpl | ⟨e', j, z, hsrc, he, hvu⟩
      · cases hpl
      · cases he
        have hy : x' = y := by
          have h1 := hvu.1
          rw [hu] at h1
          cases h1
          have := hvu.2.1
          rw [ho] at this
          cases this
          rfl
        subst hy
        exact ih.2 x' p i x hp hi hx hty (.inl rfl)
  | @unknown e s hv hn =>
    refine ⟨fun e' he hs => ?_, fun y p i x hp hi hx hty hpl => ?_⟩
    · cases he
      obtain ⟨i, p, hi, hpos, hfact⟩ := extract_param hv hs
      obtain ⟨j, o, hj, hjo, hio⟩ := paramPosition (h.parsed.params (by simp [hfact])) hpos
      exact absurd ⟨i, o, hi, hio⟩ hn
    · rcases hpl with hpl | ⟨e', j, z, hsrc, he, hvu⟩
      · cases hpl
      · cases he
        exact absurd ⟨j, y, hvu.1, hvu.2.1⟩ hn
  | argument => exact ⟨fun e he => (nomatch he), fun _ _ _ _ _ _ _ _ _ => .inr (.inr rfl)⟩
  | zero => exact ⟨fun e he => (nomatch he), fun _ _ _ _ _ _ _ _ _ => .inl rfl⟩
  | @outside x' s h1 h2 =>
    refine ⟨fun e he => (nomatch he), fun y p i x hp hi hx hty hpl => ?_⟩
    rcases hpl with hpl | ⟨e', j, z, hsrc, he, hvu⟩
    · cases hpl; exact ((hdecl _ p i x hp hi hx hty).elim h1 h2).elim
    · cases he
  | @wild x' s h1 =>
    refine ⟨fun e he => (nomatch he), fun y p i x hp hi hx hty hpl => ?_⟩
    rcases hpl with hpl | ⟨e', j, z, hsrc, he, hvu⟩
    · cases hpl
      exact absurd h1 (h.supported.param p i x' hp hi (by rw [hx]; exact hty))
    · cases he
  | @assigned x' e s hsrc _ ih =>
    refine ⟨fun e he => (nomatch he), fun y p i x hp hi hx hty hpl => ?_⟩
    rcases hpl with hpl | ⟨e', j, z, hsrc, he, hvu⟩
    · cases hpl
      obtain ⟨i', hi', hn, hc⟩ := h.constructor hp
      rw [hi] at hi'
      cases hi'
      obtain ⟨c1, c2, c3⟩ := hc x hx
      by_cases hv : ∃ j z, VarUse env e j z
      · obtain ⟨j, z, hv⟩ := hv
        exact ih.2 z p i x hp hi hx (.step hty hsrc hv (h.parsed.nilVars _ _ _ _ hsrc hv) (c3 _ _ _ _ hty hsrc hv) (by simp))
          (.inr ⟨e, j, x', hsrc, rfl, hv⟩)
      · obtain ⟨d1, d2⟩ := c1 _ _ hty hsrc hv
        obtain ⟨u1, u2⟩ := extract_unparen (h.parsed.values _ _ hsrc) d1
        rcases ih.1 e rfl u1 with h' | h' | h' | ⟨-, h'⟩
        · exact .inl h'
        · exact .inr (.inl (d2 s (u2 ▸ h')))
        · exact .inr (.inl h')
        · exact .inr (.inr h')
    · cases he
  | @destructured x' d s hd =>
    refine ⟨fun e he => (nomatch he), fun y p i x hp hi hx hty hpl => ?_⟩
    rcases hpl with hpl | ⟨e', j, z, hsrc, he, hvu⟩
    · cases hpl
      obtain ⟨i', hi', hn, hc⟩ := h.constructor hp
      rw [hi] at hi'
      cases hi'
      exact absurd hd ((hc x hx).2.1 _ _ hty)
    · cases he

end Runtime
end Serum
