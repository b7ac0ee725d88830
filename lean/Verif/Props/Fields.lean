import Verif.Props.Calls
import Verif.FieldLemmas

/-!
# C30: codes assigned to the code field of a returned error are found
-/

namespace Serum.Props.Fields
open Flow Taint Analyse CodeFormat

variable {env : Env} {f : FnId} {body : List Node} {fuel : Nat}

/-- The error type `t` is the type of variable `x` wherever one of its fields is assigned. -/
def FieldType (env : Env) (body : List Node) (x : ObjId) (t : ErrorType) : Prop :=
  ∀ id lhs rhs, WithinList outsideAssignments (.assign id lhs rhs) body → ∀ sid i sel, .selector sid (.ident i) sel ∈ lhs →
    i.obj = some x → ∃ o, getNamedType (env.typeOf i.id) = some o ∧ env.facts.errorType o = some t

theorem FieldType.types {x : ObjId} {t : ErrorType} (h : FieldType env body x t) :
    FieldTypes env (Node.inspectList intoFields body) x t := by
  intro id lhs rhs hin sid i sel hl ho
  rw [intoFields_eq, mem_inspectList] at hin
  obtain ⟨o, h1, h2⟩ := h id lhs rhs hin sid i sel hl ho
  simp only [Env.getErrorTypeForError, h1, h2]

/-- The parameters of a function in order, unnamed ones included. -/
def slots (params : List Field) : List (Option Ident) :=
  params.flatMap fun g => if g.names = [] then [none] else g.names.map some

/-- `e` is the error code parameter declared by `f` itself: `f` is a declared function, recorded as error constructor with the
position of that parameter. -/
def OwnParam (env : Env) (f : FnId) (e : Node) : Prop :=
  ∃ i o position j, e.unparen = .ident i ∧ i.obj = some o ∧ (slots (env.func f).type.params)[position]? = some (some j) ∧
    j.obj = some o ∧ (env.func f).declName ≠ none ∧ env.facts.ctor (env.funcObj f) = some position

theorem paramPosition_slot {o : ObjId} : ∀ {gs : List Field} {pos p : Nat}, paramPositionLoop o pos gs = some p →
    ∃ k j, p = pos + k ∧ (slots gs)[k]? = some (some j) ∧ j.obj = some o
  | [], pos, p, h => by cases h
  | g :: gs, pos, p, h => by
    unfold paramPositionLoop at h
    split at h
    · rename_i hn
      obtain ⟨k, j, rfl, hk, hj⟩ := paramPosition_slot h
      exact ⟨k + 1, j, by omega, by simpa [slots, hn] using hk, hj⟩
    · rename_i hn
      have hne : ¬ g.names = [] := fun h => hn h
      split at h
      · rename_i k hk
        cases h
        rw [List.findIdx?_eq_some_iff_getElem] at hk
        obtain ⟨hlt, hk, -⟩ := hk
        refine ⟨k, g.names[k], rfl, ?_, by simpa using hk⟩
        simp only [slots, List.flatMap_cons, hne, if_false]
        rw [List.getElem?_append_left (by simpa using hlt)]
        simp [hlt]
      · obtain ⟨k, j, rfl, hk, hj⟩ := paramPosition_slot h
        refine ⟨g.names.length + k, j, by omega, ?_, hj⟩
        simp only [slots, List.flatMap_cons, hne, if_false]
        rw [List.getElem?_append_right (by simp)]
        simpa [slots] using hk

theorem assigned_leaf (hr : Regular env f body) (hf : bound env ≤ fuel) {x : ObjId} (hx : ErrVar env f body x) {t : ErrorType}
    (ht : FieldType env body x t) {fd : ErrorCodeField} (hfd : t.field = some fd) {l : BodyPlan} (hl : l ≠ .codes [])
    (h : FieldLeaf env f (Node.inspectList intoFields body) x fd.name l) : l ∈ (plan env fuel f).leaves := by
  obtain ⟨c, hc⟩ := hr.constructor hf
  refine (hr.leaves hf hc hl).2 (.field hx ?_)
  refine (fieldAssignments_leaves hfd hl _ (fun id lhs rhs hin hlen hnil => ?_) ht.types).2 h
  subst hnil
  exact hr.parsed.assigns id lhs [] (ErrorTypes.occurs_of_within ((mem_inspectList _ _ _).1 hin)) (fun h => hlen (by simp [h])) rfl

theorem fields_yield (hr : Regular env f body) (hf : bound env ≤ fuel) {x : ObjId} (hx : ErrVar env f body x)
    {ρ : FnId → GoString → Prop} {c : GoString} (h : (fieldAssignments env f x (Node.inspectList intoFields body)).Yields ρ c) :
    (plan env fuel f).Yields ρ c := by
  obtain ⟨pc, hpc, hp⟩ := hr.look hf
  obtain ⟨q, v, hplan, hret⟩ := bodyPlan_shape hr.has hr.scope hr.parsed (bound_enough hf) hpc hp
  rw [hplan]
  refine .inr (.inr ?_)
  unfold assignedFields
  rw [unions_yields]
  exact ⟨_, List.mem_map.2 ⟨x, (env.fieldOrder_perm _ _).mem_iff.2 (hret.visited.2 hx), rfl⟩, h⟩

/-- What is found for one assignment `x.field = e`, as part of the function's plan. -/
theorem assigned (hr : Regular env f body) (hf : bound env ≤ fuel) (hp : PrintsAscii env.isPrint) {x : ObjId}
    (hx : ErrVar env f body x) {t : ErrorType} (ht : FieldType env body x t) {fd : ErrorCodeField} (hfd : t.field = some fd)
    {e : Node} (ha : FieldAssigned body x fd.name e) :
    (∀ s, env.value e.id = some (.str s) → s = [] ∨ (∀ ρ, (plan env fuel f).Yields ρ s) ∨
      (¬ (WellFormed s ∧ s.length ≤ 70) ∧ ∃ why, Because env.isPrint (.str s) why ∧ ⟨e.id, .badConstant why⟩ ∈ (plan env fuel f).reports)) ∧
    (env.value e.id = none → OwnParam env f e ∨ ⟨e.id, .notConstant⟩ ∈ (plan env fuel f).reports ∨
      ∃ i, e.unparen = .ident i ∧ ⟨i.id, .paramNotDeclared i.name⟩ ∈ (plan env fuel f).reports) := by
  obtain ⟨aid, lhs, rhs, k, hw, hlen, htgt, hrhs⟩ := ha
  have hin := (mem_inspectList _ _ _).2 hw
  have leaf : ∀ l, l ≠ .codes [] → l ∈ (foundCode (extractErrorCodeFromStringExpression env f e)).leaves →
      l ∈ (plan env fuel f).leaves := fun l hn hl => assigned_leaf hr hf hx ht hfd hn (.assigned hin hlen htgt hrhs hl)
  have rep : ∀ d ∈ (extractErrorCodeFromStringExpression env f e).2, d ∈ (plan env fuel f).reports := by
    intro d hd
    rw [Plan.mem_reports]
    refine leaf _ (by simp) ?_
    simp only [foundCode, Plan.leaves, List.mem_append, reports_leaves]
    exact .inl (.inr ⟨d, hd, rfl⟩)
  refine ⟨fun s hv => ?_, fun hv => ?_⟩
  · by_cases hn : s = []
    · exact .inl hn
    · obtain ⟨h1, h2, h3⟩ := Extract.constant_collected env hp f e _ hv
      by_cases hs : (extractErrorCodeFromStringExpression env f e).2 = []
      · refine .inr (.inl fun ρ => fields_yield hr hf hx ?_)
        have hc := ErrorTypes.extract_silent hp hv hn hs
        refine Plan.leaf_yields (l := .codes [s]) (by simp [Plan.Yields]) (fieldAssignments_noMinus _ _) ?_
        refine (fieldAssignments_leaves hfd (by simp) _ (fun id lhs rhs hin hlen hnil => ?_) ht.types).2
          (.assigned hin hlen htgt hrhs (by simp [foundCode, Plan.leaves, hc]))
        subst hnil
        exact hr.parsed.assigns id lhs [] (ErrorTypes.occurs_of_within ((mem_inspectList _ _ _).1 hin)) (fun h => hlen (by simp [h])) rfl
      · refine .inr (.inr ⟨fun hwf => ?_, _, (because_iff (hp 10 (by omega))).2 rfl, rep _ ?_⟩)
        · rw [Extract.constant_accepted_partial env hp f e s hv hwf.1 hwf.2] at hs; exact hs rfl
        · rcases h3 with h | ⟨h, -⟩
          · exact absurd h hs
          · rw [h]; exact List.mem_singleton.2 rfl
  · unfold extractErrorCodeFromStringExpression at rep
    simp only [hv] at rep
    cases hu : e.unparen with
    | ident i =>
      simp only [hu] at rep
      cases hpos : getParamPosition (env.func f).type i with
      | none => simp only [hpos] at rep; exact .inr (.inl (rep _ (by simp)))
      | some position =>
        simp only [hpos, checkIfExprIsErrorCodeParam] at rep
        by_cases hc : importErrorConstructorFact env f = some position
        · unfold getParamPosition at hpos
          split at hpos
          · cases hpos
          rename_i o ho
          obtain ⟨k, j, rfl, hk, hj⟩ := paramPosition_slot hpos
          rw [Nat.zero_add] at hc
          unfold importErrorConstructorFact at hc
          split at hc
          · rename_i hd
            exact .inl ⟨i, o, k, j, hu, ho, hk, hj, by intro h; simp [h] at hd, hc⟩
          · cases hc
        · simp only [hc, if_false] at rep
          exact .inr (.inr ⟨i, rfl, rep _ (by simp)⟩)
    | _ => simp only [hu] at rep; exact .inr (.inl (rep _ (by simp)))

/-- **C30**, partial.  In a run over all functions with declarations, let `x` be a variable whose value may be
returned by `f`, of an error type with a code field.  Then every constant assigned to that field, anywhere in
the function, is empty or among the codes found for `f`, or it is not a well-formed code of at most 70
characters and reported.  Everything else assigned to the field is the error code parameter of `f` itself or
reported.

Missing: assignments inside another assignment statement, and `(x).field = …`; there the claim is false
(`nested_assignment_missed`, `parenthesised_assignment_missed`). -/
theorem assigned_codes_partial (hr : Regular env f body) (hf : bound env ≤ fuel) (hp : PrintsAscii env.isPrint)
    {depth : Nat} {order : List FnId} {results : List (FnId × CodeSet)}
    {st : Search FnId Diag} (h : Search.findAll (plan env fuel) depth order Search.start = .ok (results, st))
    {T : CodeSet} (hT : st.found f = some T) {x : ObjId} (hx : ErrVar env f body x) {t : ErrorType}
    (ht : FieldType env body x t) {fd : ErrorCodeField} (hfd : t.field = some fd) {e : Node} :
    (FieldAssigned body x fd.name e →
      (∀ s, env.value e.id = some (.str s) → s = [] ∨ s ∈ T ∨
        (¬ (WellFormed s ∧ s.length ≤ 70) ∧ ∃ why, Because env.isPrint (.str s) why ∧ (f, ⟨e.id, .badConstant why⟩) ∈ st.diags)) ∧
      (env.value e.id = none → OwnParam env f e ∨ (f, ⟨e.id, .notConstant⟩) ∈ st.diags ∨
        ∃ i, e.unparen = .ident i ∧ (f, ⟨i.id, .paramNotDeclared i.name⟩) ∈ st.diags)) ∧
    (FieldDestructured body x fd.name e → (f, ⟨e.id, .notConstant⟩) ∈ st.diags) := by
  obtain ⟨f₀, hf₀, hreach⟩ := ((CallGraph.found_iff_reached h).2 f).1 ⟨T, hT⟩
  have hdiag : ∀ d ∈ (plan env fuel f).reports, (f, d) ∈ st.diags := by
    intro d hd
    rw [← (CallGraph.body_once h f).1 ⟨f₀, hf₀, hreach⟩] at hd
    unfold CallGraph.diagnosticsOf at hd
    obtain ⟨⟨f', d'⟩, hm, rfl⟩ := List.mem_map.1 hd
    simp only [List.mem_filter, decide_eq_true_eq] at hm
    obtain ⟨h1, rfl⟩ := hm
    exact h1
  refine ⟨fun ha => ?_, fun ha => ?_⟩
  · obtain ⟨h1, h2⟩ := assigned hr hf hp hx ht hfd ha
    refine ⟨fun s hv => ?_, fun hv => ?_⟩
    · rcases h1 s hv with h | h' | ⟨h, why, hw, h'⟩
      · exact .inl h
      · exact .inr (.inl ((CallGraph.own_found h).2 f T hT s (h' _)))
      · exact .inr (.inr ⟨h, why, hw, hdiag _ h'⟩)
    · rcases h2 hv with h | h | ⟨i, hi, h⟩
      · exact .inl h
      · exact .inr (.inl (hdiag _ h))
      · exact .inr (.inr ⟨i, hi, hdiag _ h⟩)
  · obtain ⟨aid, lhs, rhs, k, hw, hlen, htgt, hrhs⟩ := ha
    refine hdiag _ ((Plan.mem_reports _).2 (assigned_leaf hr hf hx ht hfd (by simp) ?_))
    exact .destructured ((mem_inspectList _ _ _).2 hw) hlen htgt hrhs rfl

/-! ## Examples

`type Err struct { TheCode string }` with `func (e *Err) Code() string { return e.TheCode }` (type name 7); the
variable `err` is object 0, `done` object 1. -/

def fieldEnv (body : List Node) : Env :=
  { Tracking.plainEnv [⟨.var, 30, .other⟩, ⟨.var, 40, .other⟩] with
    funcs := [⟨100, some ⟨101, b!"F", none⟩, ⟨[], some [⟨[], 11⟩], 10⟩, some body, 20, 100⟩,
      ⟨102, none, ⟨[], some [⟨[], 11⟩], 50⟩, some [], 51, 60⟩]
    typeOf := fun _ => .pointer (.named 7)
    implCode := fun t => t == .pointer (.named 7)
    value := fun n => if n = 3 then some (.str b!"a-error") else if n = 4 then some (.str b!"b-error") else none
    facts := ⟨fun _ => none, fun _ => none, fun o => if o = 7 then some ⟨[], some ⟨b!"TheCode", 0⟩⟩ else none, fun _ => none⟩ }

/-- `err := &Err{"a-error"}` -/
def initErr : Node := .assign 1 [.ident ⟨2, b!"err", some 0⟩] [.unary 5 true (.compositeLit 6 [.basicLit 3])]
/-- `err.TheCode = "b-error"` -/
def setCode : Node := .assign 10 [.selector 11 (.ident ⟨12, b!"err", some 0⟩) ⟨13, b!"TheCode", none⟩] [.basicLit 4]
/-- `(err).TheCode = "b-error"` -/
def setCodeParen : Node :=
  .assign 10 [.selector 11 (.paren 14 (.ident ⟨12, b!"err", some 0⟩)) ⟨13, b!"TheCode", none⟩] [.basicLit 4]
/-- `done := func() bool { err.TheCode = "b-error"; … }()` -/
def setCodeNested : Node :=
  .assign 15 [.ident ⟨16, b!"done", some 1⟩] [.call 17 (.funcLit 18 1 ⟨[], none, 0⟩ [setCode]) []]
/-- `return err` -/
def retErr : Node := .ret 20 [.ident ⟨21, b!"err", some 0⟩]

/-- Both the initial and the assigned code are found. -/
example : ((Search.findAll (plan (fieldEnv [initErr, setCode, retErr]) (bound (fieldEnv [initErr, setCode, retErr]))) 4 [0] Search.start).map Prod.fst).toOption =
    some [(0, [b!"a-error", b!"b-error"])] := by decide +kernel

/-- The hypotheses of `assigned_codes_partial` hold for this function, with an assignment to the field. -/
example : Regular (fieldEnv [initErr, setCode, retErr]) 0 [initErr, setCode, retErr] ∧
    ErrVar (fieldEnv [initErr, setCode, retErr]) 0 [initErr, setCode, retErr] 0 ∧
    FieldType (fieldEnv [initErr, setCode, retErr]) [initErr, setCode, retErr] 0 ⟨[], some ⟨b!"TheCode", 0⟩⟩ ∧
    FieldAssigned [initErr, setCode, retErr] 0 b!"TheCode" (.basicLit 4) ∧
    CallGraph.NoLiteralCycle (plan (fieldEnv [initErr, setCode, retErr]) (bound (fieldEnv [initErr, setCode, retErr]))) := by
  refine ⟨.of_simple rfl (by decide) rfl, ⟨.ident ⟨21, b!"err", some 0⟩, ⟨21, b!"err", some 0⟩, .root ⟨20, [.ident ⟨21, b!"err", some 0⟩], ⟨⟨retErr, by simp, .self⟩, ?_⟩, .inl rfl⟩,
    .inl rfl, rfl, by decide, .inr ⟨.inr ⟨0, rfl, by decide, by decide⟩, fun o _ => simple_noLit (env := fieldEnv [initErr, setCode, retErr]) (by decide) o⟩⟩, ?_,
    ⟨10, _, _, 0, ⟨setCode, by simp, .self⟩, rfl, ⟨11, _, _, rfl, rfl, rfl⟩, rfl⟩, ?_⟩
  · intro a ha; simp [fieldEnv, Tracking.plainEnv, getReturnStmtAnnotations] at ha
  · intro id lhs rhs _ sid i sel _ _; exact ⟨_, rfl, rfl⟩
  · intro f g hg
    match f with
    | 0 => rw [show (plan (fieldEnv [initErr, setCode, retErr]) (bound (fieldEnv [initErr, setCode, retErr])) 0).visits = [] from by rfl] at hg; cases hg
    | 1 => rw [show (plan (fieldEnv [initErr, setCode, retErr]) (bound (fieldEnv [initErr, setCode, retErr])) 1).visits = [] from by rfl] at hg; cases hg
    | f + 2 => simp [plan, bodyPlan, Env.func, fieldEnv, Plan.visits] at hg

/-- **C30 does not hold of the code** for an assignment inside another assignment statement (here: in a
function literal that is called on the right-hand side): the code is neither found nor reported. -/
theorem nested_assignment_missed :
    ((Search.findAll (plan (fieldEnv [initErr, setCodeNested, retErr]) (bound (fieldEnv [initErr, setCodeNested, retErr]))) 4 [0] Search.start).map
      fun r => (r.1, r.2.diags)).toOption = some ([(0, [b!"a-error"])], []) := by decide +kernel

/-- **C30 does not hold of the code** for `(err).TheCode = "b-error"`. -/
theorem parenthesised_assignment_missed :
    ((Search.findAll (plan (fieldEnv [initErr, setCodeParen, retErr]) (bound (fieldEnv [initErr, setCodeParen, retErr]))) 4 [0] Search.start).map
      fun r => (r.1, r.2.diags)).toOption = some ([(0, [b!"a-error"])], []) := by decide +kernel

end Serum.Props.Fields
