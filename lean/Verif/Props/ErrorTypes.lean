import Verif.CodeMethodSound
import Verif.CodeSetLemmas
import Verif.FieldLemmas
import Verif.Props.Tracking

/-!
# C29 — error types and their `Code` methods

`env`, `d`, `td` are the syntax and type information of the package (arbitrary); executions of the method are
those of `Verif/Spec/CodeMethodExec.lean`.
-/

namespace Serum.Props.ErrorTypes
open Serum Serum.CodeExec Serum.CodeFormat

/-! ## Inverting the tagging -/

theorem planResult_spec : ∀ (p : BodyPlan) (s : CodeSet) (ds : List Diag), planResult p = .ok (s, ds) →
    (∀ c, c ∈ s ↔ p.Yields (fun _ _ => False) c) ∧ ds = p.reports ∧ p.panics = false := by
  intro p
  induction p with
  | codes s => intro t ds h; simp only [planResult, Except.ok.injEq, Prod.mk.injEq] at h; obtain ⟨rfl, rfl⟩ := h; simp [Plan.Yields, Plan.reports, Plan.panics]
  | report d => intro t ds h; simp only [planResult, Except.ok.injEq, Prod.mk.injEq] at h; obtain ⟨rfl, rfl⟩ := h; simp [Plan.Yields, Plan.reports, Plan.panics]
  | panic l => intro t ds h; simp [planResult] at h
  | call g => intro t ds h; simp [planResult] at h
  | visit g => intro t ds h; simp [planResult] at h
  | union a b iha ihb =>
    intro t ds h
    simp only [planResult, bind, Except.bind] at h
    split at h
    · cases h
    · rename_i r hr
      obtain ⟨s₁, d₁⟩ := r
      simp only at h
      split at h
      · cases h
      · rename_i r hr'
        obtain ⟨s₂, d₂⟩ := r
        simp only [pure, Except.pure, Except.ok.injEq, Prod.mk.injEq] at h
        obtain ⟨rfl, rfl⟩ := h
        obtain ⟨h1, h2, h3⟩ := iha _ _ hr
        obtain ⟨h4, h5, h6⟩ := ihb _ _ hr'
        exact ⟨fun c => by rw [CodeSet.mem_union, h1, h4]; rfl, by rw [h2, h5]; rfl, by simp [Plan.panics, h3, h6]⟩
  | minus a s ih =>
    intro t ds h
    simp only [planResult, bind, Except.bind] at h
    split at h
    · cases h
    · rename_i r hr
      obtain ⟨s₁, d₁⟩ := r
      simp only [pure, Except.pure, Except.ok.injEq, Prod.mk.injEq] at h
      obtain ⟨rfl, rfl⟩ := h
      obtain ⟨h1, h2, h3⟩ := ih _ _ hr
      exact ⟨fun c => by rw [CodeSet.mem_diff, h1]; rfl, by rw [h2]; rfl, by simp [Plan.panics, h3]⟩

/-- The pieces of a successful tagging. -/
structure Tagged (env : Env) (td : TypeDecls) (fuel : Nat) (spec : TypeSpec) (err : GoType) (o : Object)
    (et : ErrorType) (ds : List TagDiag) where
  m : FnId
  receiver : Option Ident
  st : TagState
  et₀ : ErrorType
  es : List Diag
  named : getNamedType err = some o
  code : getCodeFuncFromError env td err = some (m, receiver)
  run : CodeMethod.returnStmts env m ((env.func m).body.getD []) receiver fuel
    (Node.inspectList CodeMethod.intoCode ((env.func m).body.getD [])) ⟨[], [], none, []⟩ = .ok st
  codes : et₀.codes = st.codes
  field : et₀.field = st.field.bind fun i => (CodeMethod.getFieldPosition spec.fields i.name).map fun p => ⟨i.name, p⟩
  methods : analyseMethodsOfErrorType env td et₀ err = .ok (et, es)
  pos : NodeId
  diags : ds = st.diags ++ (match st.field with
    | none => []
    | some i => if CodeMethod.getFieldPosition spec.fields i.name = none then [(⟨pos, .notField i.name⟩ : TagDiag)] else []) ++
    es.map fun e => ⟨e.at_, .assignment e.msg⟩

theorem tagged {env : Env} {d : Decls} {td : TypeDecls} {fuel : Nat} {spec : TypeSpec} {err : GoType} {o : Object}
    {et : ErrorType} {ds : List TagDiag} (h : tagErrorType env d td fuel spec err = .ok (some (o, et), ds)) :
    Nonempty (Tagged env td fuel spec err o et ds) := by
  unfold tagErrorType at h
  split at h
  · cases h
  · rename_i o' ho
    split at h
    · cases h
    · split at h
      · cases h
      · rename_i m receiver hm
        simp only [bind, Except.bind] at h
        split at h
        · cases h
        · rename_i r hr
          obtain ⟨res, ds₀⟩ := r
          simp only at h
          cases res with
          | none => cases h
          | some et₀ =>
            simp only at h
            split at h
            · cases h
            · rename_i r hr'
              obtain ⟨et', es⟩ := r
              simp only [pure, Except.pure, Except.ok.injEq, Prod.mk.injEq, Option.some.injEq] at h
              obtain ⟨⟨rfl, rfl⟩, rfl⟩ := h
              unfold CodeMethod.analyse at hr
              simp only [bind, Except.bind] at hr
              split at hr
              · cases hr
              · rename_i st hst
                simp only [pure, Except.pure, Except.ok.injEq, CodeMethod.outcome, Prod.mk.injEq] at hr
                obtain ⟨h1, rfl⟩ := hr
                split at h1
                · cases h1
                · simp only [Option.some.injEq] at h1
                  subst h1
                  exact ⟨⟨m, receiver, st, _, es, ho, hm, hst, rfl, rfl, hr', _, rfl⟩⟩

theorem methods_mono {env : Env} {td : TypeDecls} {et₀ et : ErrorType} {err : GoType} {es : List Diag}
    (h : analyseMethodsOfErrorType env td et₀ err = .ok (et, es)) :
    et.field = et₀.field ∧ ∀ c ∈ et₀.codes, c ∈ et.codes := by
  unfold analyseMethodsOfErrorType at h
  split at h
  · cases h; exact ⟨rfl, fun _ h => h⟩
  · simp only [bind, Except.bind] at h
    split at h
    · cases h
    · rename_i r hr
      obtain ⟨s, ds⟩ := r
      simp only [pure, Except.pure, Except.ok.injEq, Prod.mk.injEq] at h
      obtain ⟨rfl, rfl⟩ := h
      split
      · exact ⟨rfl, fun c hc => by rw [CodeSet.mem_union]; exact .inl ((CodeSet.mem_ofSlice).2 hc)⟩
      · exact ⟨rfl, fun _ h => h⟩

/-! ## C29 -/

/-- A method `Code` declared for the type `err`, which is a type or a pointer to it. -/
def CodeMethod (env : Env) (td : TypeDecls) (err : GoType) (m : FnId) : Prop :=
  m ∈ env.methods b!"Code" ∧ (td.recvType m = err ∨ err = .pointer (td.recvType m))

/-- `m` is the (only) method `Code` of the type `err`, and `receiver` its receiver variable, if it has one. -/
structure TheCodeMethod (env : Env) (td : TypeDecls) (err : GoType) (m : FnId) (receiver : Option Ident) : Prop where
  has : CodeMethod env td err m
  only : ∀ m', CodeMethod env td err m' → m' = m
  receiver : ∀ r, receiver = some r ↔ td.recvNames m = [r]

theorem subset_iff {a b : GoType} : errorTypesSubset a b = true ↔ (a = b ∨ b = .pointer a) := by
  unfold errorTypesSubset
  cases b with
  | pointer e => simp only [Bool.or_eq_true, decide_eq_true_eq, GoType.pointer.injEq, @eq_comm _ e]
  | _ => simp

theorem codeMethod_found {env : Env} {td : TypeDecls} {err : GoType} {m : FnId} {receiver : Option Ident}
    (h : TheCodeMethod env td err m receiver) : getCodeFuncFromError env td err = some (m, receiver) := by
  unfold getCodeFuncFromError
  cases hf : (env.methods b!"Code").find? (fun m => errorTypesSubset (td.recvType m) err) with
  | none => exact absurd (subset_iff.2 h.has.2) (by simpa using List.find?_eq_none.1 hf m h.has.1)
  | some m' =>
    have hm' : m' = m := h.only m' ⟨List.mem_of_find?_eq_some hf, subset_iff.1 (by simpa using List.find?_some hf)⟩
    subst hm'
    have hr := h.receiver
    simp only
    cases hn : td.recvNames m' with
    | nil =>
      rw [hn] at hr
      cases receiver with
      | none => rfl
      | some r => exact absurd ((hr r).1 rfl) (by simp)
    | cons r rs =>
      rw [hn] at hr
      cases rs with
      | nil => rw [(hr r).2 rfl]
      | cons r' rs =>
        cases receiver with
        | none => rfl
        | some r => exact absurd ((hr r).1 rfl) (by simp)

/-- **C29.** If tagging an error type emits no diagnostic, and `m` is its `Code` method, then in every execution
of `m` (passing through the states `σ :: τ`, `σ` being the last) every string `s` that it can return is empty,
one of the recorded codes, or the value the recorded field of the receiver had at some point of the execution.

Partial: the supported fragment (`Supported`) excludes methods that reassign the receiver variable
(`receiver_reassigned` below: accepted silently although the claim is false), and methods with a named result
that defer calls (`deferred_result`: likewise), and variables that are assigned other than by assignments
(range loops, `+=`, through pointers), which are not strings that the property is about or are likewise not
seen.  `Typed` and `Scoped` hold for type-correct programs in which no variable is called `nil`; `Scoped` also
excludes the shape of `Props.Tracking.nested_parameter_accepted`. -/
theorem code_method_covered_partial (env : Env) (d : Decls) (td : TypeDecls) (fuel : Nat) (spec : TypeSpec)
    (err : GoType) (o : Object) (et : ErrorType) (extra : Extra) (m : FnId) (receiver : Option Ident)
    (silent : tagErrorType env d td fuel spec err = .ok (some (o, et), []))
    (method : TheCodeMethod env td err m receiver)
    (ascii : PrintsAscii env.isPrint)
    (supported : Supported env extra m ((env.func m).body.getD []) receiver)
    (typed : Typed env m ((env.func m).body.getD [])) (scope : Scoped env m ((env.func m).body.getD []))
    (σ : State) (τ : List State) (run : Execution env extra m ((env.func m).body.getD []) receiver (σ :: τ))
    (s : GoString) (result : Result env extra m ((env.func m).body.getD []) receiver σ s) :
    s = [] ∨ s ∈ et.codes ∨ ∃ fd σ', et.field = some fd ∧ σ' ∈ σ :: τ ∧ s = σ'.field fd.name := by
  obtain ⟨t⟩ := tagged silent
  have hm := t.code; rw [codeMethod_found method] at hm; simp only [Option.some.injEq, Prod.mk.injEq] at hm
  obtain ⟨h1, h2⟩ := hm
  have hd := t.diags
  simp only [List.nil_eq, List.append_eq_nil_iff] at hd
  have hrun := t.run; rw [← h1, ← h2] at hrun
  have hc := CodeMethod.complete typed scope hrun hd.1.1
  obtain ⟨hf, hcodes⟩ := methods_mono t.methods
  rcases CodeMethod.result_covered ascii supported hc run result with h | h | ⟨g, σ', hg, hσ', h⟩
  · exact .inl h
  · exact .inr (.inl (hcodes s (by rw [t.codes]; exact h)))
  · have hp := hd.1.2
    rw [hg] at hp
    simp only [ite_eq_right_iff, List.cons_ne_nil, imp_false] at hp
    cases hpos : CodeMethod.getFieldPosition spec.fields g.name with
    | none => exact absurd hpos hp
    | some p =>
      refine .inr (.inr ⟨⟨g.name, p⟩, σ', ?_, hσ', h⟩)
      rw [hf, t.field, hg]
      simp [hpos]

/-! ## Exactness of what is recorded -/

/-- The position found for a field: counting all fields of the struct in order, embedded ones (`none`)
included. -/
theorem fieldPositionLoop_spec (name : GoString) : ∀ (gs : List (List GoString)) (i p : Nat),
    CodeMethod.fieldPositionLoop name i gs = some p →
    ∃ k, p = i + k ∧ (gs.flatMap fun ns => if ns = [] then [none] else ns.map some)[k]? = some (some name) := by
  intro gs
  induction gs with
  | nil => intro i p h; simp [CodeMethod.fieldPositionLoop] at h
  | cons ns gs ih =>
    intro i p h
    unfold CodeMethod.fieldPositionLoop at h
    split at h
    · rename_i hn
      obtain ⟨k, rfl, hk⟩ := ih _ _ h
      refine ⟨k + 1, by omega, ?_⟩
      simpa [hn] using hk
    · rename_i hn
      split at h
      · rename_i k hk
        cases h
        refine ⟨k, rfl, ?_⟩
        rw [List.findIdx?_eq_some_iff_getElem] at hk
        obtain ⟨hlt, hk, -⟩ := hk
        simp only [List.flatMap_cons, hn, if_false]
        rw [List.getElem?_append_left (by simpa using hlt)]
        simp only [List.getElem?_map, List.getElem?_eq_getElem hlt, Option.map_some, Option.some.injEq]
        simpa using hk
      · obtain ⟨k, rfl, hk⟩ := ih _ _ h
        refine ⟨ns.length + k, by omega, ?_⟩
        simp only [List.flatMap_cons, hn, if_false]
        rw [List.getElem?_append_right (by simp)]
        simpa using hk

theorem extract_some {env : Env} (hp : PrintsAscii env.isPrint) {f : FnId} {e : Node} {c : GoString}
    (h : (extractErrorCodeFromStringExpression env f e).1 = some c) :
    env.value e.id = some (.str c) ∧ WellFormed c ∧ c ≠ [] := by
  cases hv : env.value e.id with
  | none =>
    simp only [extractErrorCodeFromStringExpression, hv] at h
    repeat' split at h
    all_goals cases h
  | some v =>
    obtain ⟨rfl, hw⟩ := (Extract.constant_collected env hp f e v hv).1 c h
    refine ⟨rfl, hw, ?_⟩
    rcases hw with ⟨f, m, z, rfl, -⟩ | ⟨x, rfl, -⟩ <;> simp

theorem extract_silent {env : Env} (hp : PrintsAscii env.isPrint) {f : FnId} {e : Node} {c : GoString}
    (hv : env.value e.id = some (.str c)) (hn : c ≠ []) (h : (extractErrorCodeFromStringExpression env f e).2 = []) :
    (extractErrorCodeFromStringExpression env f e).1 = some c := by
  obtain ⟨h1, h2, -⟩ := Extract.constant_collected env hp f e _ hv
  rcases h2.1 h with h | ⟨c', h⟩
  · cases h; exact absurd rfl hn
  · obtain ⟨h', -⟩ := h1 c' h
    cases h'; exact h

theorem foundCode_yields {x : Found} {ρ : FnId → GoString → Prop} {c : GoString} {l : BodyPlan} (hl : l ∈ (foundCode x).leaves)
    (h : l.Yields ρ c) : x.1 = some c := by
  simp only [foundCode, Plan.leaves, List.mem_append, reports_leaves, List.mem_singleton] at hl
  rcases hl with (rfl | ⟨d, -, rfl⟩) | rfl
  · simp [Plan.Yields] at h
  · exact h.elim
  · simpa [Plan.Yields] using h

theorem methodAssignments_noMinus {env : Env} {f : FnId} {et : ErrorType} {x : ObjId} :
    ∀ ns : List Node, (methodAssignments env f et x ns).NoMinus := by
  intro ns
  induction ns with
  | nil => exact trivial
  | cons n ns ih =>
    cases n with
    | assign id lhs rhs => exact ⟨Analyse.fieldAssignment_noMinus _ _ _ _ _ _, ih⟩
    | _ => exact ih

theorem occurs_of_within {go : Node → Bool} {m : Node} {ns : List Node} (h : WithinList go m ns) : Occurs m ns := by
  obtain ⟨n, hn, h⟩ := h
  refine ⟨n, hn, ?_⟩
  clear hn
  induction h with
  | self => exact .self
  | child _ hc _ ih => exact .child rfl hc ih

/-- `m` is declared (in the package) as a method of the error type, with the receiver variable `v`. -/
def MethodWith (env : Env) (td : TypeDecls) (err : GoType) (o : Object) (m : FnId) (v : ObjId) : Prop :=
  (∃ name ∈ td.methodNames o, m ∈ env.methods name) ∧ (td.recvType m = err ∨ err = .pointer (td.recvType m)) ∧
  ∃ r, td.recvNames m = [r] ∧ r.obj = some v

theorem mem_collect {env : Env} {td : TypeDecls} {err : GoType} {o : Object} (ho : getNamedType err = some o) {m : FnId} :
    m ∈ collectMethodsForErrorType env td err ↔
      (∃ name ∈ td.methodNames o, m ∈ env.methods name) ∧ (td.recvType m = err ∨ err = .pointer (td.recvType m)) := by
  simp only [collectMethodsForErrorType, ho, List.mem_flatMap, List.mem_filter, subset_iff]
  constructor
  · rintro ⟨n, hn, hm, h⟩; exact ⟨⟨n, hn, hm⟩, h⟩
  · rintro ⟨⟨n, hn, hm⟩, h⟩; exact ⟨n, hn, hm, h⟩

/-- **C29**, exactness, and **C30** for methods: when tagging is silent, the recorded codes are exactly the non-empty
constants that the `Code` method may return by itself (directly or through variables) and the non-empty
constants that the type's methods assign to the recorded field of their receiver; all are well-formed.  The
recorded field is exactly the one the `Code` method may return, and lies at the recorded position.

Partial: same scope as above; assignments inside other assignment statements are not seen
(`Flow.FieldAssigned`, `nested_assignment_missed` in `Props/Fields.lean`). -/
theorem recorded_exact_partial (env : Env) (d : Decls) (td : TypeDecls) (fuel : Nat) (spec : TypeSpec)
    (err : GoType) (o : Object) (et : ErrorType) (m : FnId) (receiver : Option Ident)
    (silent : tagErrorType env d td fuel spec err = .ok (some (o, et), []))
    (method : TheCodeMethod env td err m receiver)
    (ascii : PrintsAscii env.isPrint)
    (parsed : ∀ m', Taint.BodyOk ((env.func m').body.getD []))
    (typed : Typed env m ((env.func m).body.getD [])) (scope : Scoped env m ((env.func m).body.getD [])) :
    (∀ c, c ∈ et.codes ↔ c ≠ [] ∧
      ((∃ e, StrExpr env m ((env.func m).body.getD []) e ∧ env.value e.unparen.id = some (.str c)) ∨
       ∃ fd m' v e, et.field = some fd ∧ MethodWith env td err o m' v ∧
        Flow.FieldAssigned ((env.func m').body.getD []) v fd.name e ∧ env.value e.id = some (.str c))) ∧
    (∀ c ∈ et.codes, WellFormed c) ∧
    (∀ name, (∃ p, et.field = some ⟨name, p⟩) ↔ ∃ e, StrExpr env m ((env.func m).body.getD []) e ∧
      env.value e.unparen.id = none ∧ FieldOfReceiver receiver e.unparen name) ∧
    (∀ fd, et.field = some fd → ∃ gs, spec.fields = some gs ∧
      (gs.flatMap fun ns => if ns = [] then [none] else ns.map some)[fd.position]? = some (some fd.name)) := by
  obtain ⟨t⟩ := tagged silent
  have hm := t.code; rw [codeMethod_found method] at hm; simp only [Option.some.injEq, Prod.mk.injEq] at hm
  obtain ⟨h1, h2⟩ := hm
  have hd := t.diags
  simp only [List.nil_eq, List.append_eq_nil_iff, List.map_eq_nil_iff] at hd
  have hrun := t.run; rw [← h1, ← h2] at hrun
  have hc := CodeMethod.complete typed scope hrun hd.1.1
  obtain ⟨s, -⟩ := CodeMethod.returnStmts_step typed scope _ _ _ (by intro g hg; cases hg)
    (fun n hn => (mem_inspectList _ _ _).1 hn) hrun
  obtain ⟨hf, hmono⟩ := methods_mono t.methods
  -- the codes of the method itself
  have hown : ∀ c, c ∈ t.st.codes ↔ c ≠ [] ∧ ∃ e, StrExpr env m ((env.func m).body.getD []) e ∧
      env.value e.unparen.id = some (.str c) := by
    intro c
    constructor
    · intro h
      rcases s.codes c h with h | ⟨hn, e, v, he, hv, hg⟩
      · simp at h
      · obtain ⟨rfl, -⟩ := CodeMethod.codeFromConstant ascii hg
        obtain ⟨e', he', hu⟩ := CodeMethod.looked_strExpr he
        exact ⟨hn, e', he', by rw [← hu]; exact hv⟩
    · rintro ⟨hn, e, he, hv⟩
      cases hg : getErrorCodeFromConstant env.isPrint (.str c) with
      | none => exact absurd ((hc.exprs e he).bad _ hv hg) (CodeMethod.not_said hc.silent)
      | some c' =>
        obtain ⟨h, -⟩ := CodeMethod.codeFromConstant ascii hg
        cases h
        exact (hc.exprs e he).const _ _ hv hg hn
  have hownw : ∀ c, c ∈ t.st.codes → WellFormed c := by
    intro c h
    rcases s.codes c h with h | ⟨hn, e, v, he, hv, hg⟩
    · simp at h
    · exact (CodeMethod.codeFromConstant ascii hg).2.resolve_left hn
  -- the codes assigned by methods
  have hmeth : (∀ c, c ∈ et.codes ↔ c ∈ t.st.codes ∨ (c ≠ [] ∧ ∃ fd m' v e, et.field = some fd ∧ MethodWith env td err o m' v ∧
      Flow.FieldAssigned ((env.func m').body.getD []) v fd.name e ∧ env.value e.id = some (.str c))) ∧
      ∀ c ∈ et.codes, c ∈ t.st.codes ∨ WellFormed c := by
    have hmm := t.methods
    unfold analyseMethodsOfErrorType at hmm
    split at hmm
    · rename_i hnone
      simp only [Except.ok.injEq, Prod.mk.injEq] at hmm
      obtain ⟨hmm, -⟩ := hmm
      rw [show et.codes = t.st.codes from (congrArg ErrorType.codes hmm).symm.trans t.codes]
      refine ⟨fun c => ⟨.inl, fun h => h.resolve_right ?_⟩, fun c h => .inl h⟩
      rintro ⟨-, fd, m', v, e, hfd, -⟩
      rw [hf, hnone] at hfd; cases hfd
    · rename_i hsome
      simp only [bind, Except.bind] at hmm
      split at hmm
      · cases hmm
      · rename_i r hr
        obtain ⟨as, es⟩ := r
        simp only [pure, Except.pure, Except.ok.injEq, Prod.mk.injEq] at hmm
        obtain ⟨hmm, hes⟩ := hmm
        obtain ⟨hyield, hrep, hpan⟩ := planResult_spec _ _ _ hr
        rw [hd.2] at hes
        rw [hes] at hrep
        have het : ∀ c, c ∈ et.codes ↔ c ∈ t.st.codes ∨ c ∈ as := by
          intro c
          rw [show et.codes = _ from (congrArg ErrorType.codes hmm).symm]
          split
          · simp [t.codes]
          · rename_i h0
            have : as = [] := by cases as with | nil => rfl | cons => simp at h0
            simp [t.codes, this]
        cases hfd : t.et₀.field with
        | none => exact absurd hfd hsome
        | some fd =>
        have hfde : et.field = some fd := by rw [hf, hfd]
        have hok : ∀ m' id lhs rhs, .assign id lhs rhs ∈ Node.inspectList Analyse.intoFields ((env.func m').body.getD []) →
            lhs.length ≠ rhs.length → rhs ≠ [] := by
          intro m' id lhs rhs hin hlen hnil
          subst hnil
          have hw := (mem_inspectList _ _ _).1 hin
          exact (parsed m').assigns id lhs [] (occurs_of_within hw) (fun h => hlen (by simp [h])) rfl
        have has : ∀ c, c ∈ as ↔ c ≠ [] ∧ ∃ m' v e, MethodWith env td err o m' v ∧
            Flow.FieldAssigned ((env.func m').body.getD []) v fd.name e ∧ env.value e.id = some (.str c) := by
          intro c
          rw [hyield]
          constructor
          · intro h
            obtain ⟨l, hl, hlc⟩ := Plan.yields_leaf h
            rw [Plan.unions_leaves] at hl
            rcases hl with rfl | ⟨p, hp, hl⟩
            · simp [Plan.Yields] at hlc
            · obtain ⟨m', hm', rfl⟩ := List.mem_map.1 hp
              have hlne : l ≠ .codes [] := by rintro rfl; simp [Plan.Yields] at hlc
              have hm'' := (mem_collect t.named).1 hm'
              unfold methodPlan at hl
              split at hl
              · rename_i r hrn
                split at hl
                · rename_i v hv
                  rw [methodAssignments_leaves hfd hlne _ (hok m')] at hl
                  rcases hl with ⟨hin, hlen, htgt, he, hl⟩ | ⟨hin, hlen, htgt, he, hl⟩
                  · have hx := foundCode_yields hl hlc
                    obtain ⟨hv', -, hn⟩ := extract_some ascii hx
                    exact ⟨hn, m', v, _, ⟨hm''.1, hm''.2, r, hrn, hv⟩,
                      ⟨_, _, _, _, (mem_inspectList _ _ _).1 hin, hlen, htgt, he⟩, hv'⟩
                  · subst hl; exact hlc.elim
                · simp only [Plan.leaves, List.mem_singleton] at hl; exact absurd hl hlne
              · simp only [Plan.leaves, List.mem_singleton] at hl; exact absurd hl hlne
          · rintro ⟨hn, m', v, e, ⟨h1, h2, r, hr1, hr2⟩, ⟨id, lhs, rhs, k, hin, hlen, htgt, he⟩, hv⟩
            have hin' := (mem_inspectList _ _ _).2 hin
            have hmem : methodPlan env td t.et₀ m' ∈ (collectMethodsForErrorType env td err).map (methodPlan env td t.et₀) :=
              List.mem_map.2 ⟨m', (mem_collect t.named).2 ⟨h1, h2⟩, rfl⟩
            have hleaf : ∀ l : BodyPlan, l ≠ .codes [] → l ∈ (foundCode (extractErrorCodeFromStringExpression env m' e)).leaves →
                l ∈ (Plan.unions ((collectMethodsForErrorType env td err).map (methodPlan env td t.et₀))).leaves := by
              intro l hl0 hl
              rw [Plan.unions_leaves]
              refine .inr ⟨_, hmem, ?_⟩
              simp only [methodPlan, hr1, hr2]
              rw [methodAssignments_leaves hfd hl0 _ (hok m')]
              exact .assigned hin' hlen htgt he hl
            have hsil : (extractErrorCodeFromStringExpression env m' e).2 = [] := by
              cases hx : (extractErrorCodeFromStringExpression env m' e).2 with
              | nil => rfl
              | cons x xs =>
                have := hleaf (.report x) (by simp) (by simp [foundCode, Plan.leaves, reports_leaves, hx])
                rw [← Plan.mem_reports, ← hrep] at this; simp at this
            have hx := extract_silent ascii hv hn hsil
            refine Plan.leaf_yields (l := .codes [c]) (by simp [Plan.Yields]) ?_ (hleaf _ (by simp) ?_)
            · refine Analyse.unions_noMinus _ fun p hp => ?_
              obtain ⟨m'', -, rfl⟩ := List.mem_map.1 hp
              unfold methodPlan
              repeat' split
              · exact methodAssignments_noMinus _
              · exact trivial
              · exact trivial
            · simp [foundCode, Plan.leaves, hx]
        refine ⟨fun c => ?_, fun c hcc => ?_⟩
        · rw [het, has]
          refine or_congr Iff.rfl (and_congr Iff.rfl ⟨?_, ?_⟩)
          · rintro ⟨m', v, e, h⟩; exact ⟨fd, m', v, e, hfde, h⟩
          · rintro ⟨fd', m', v, e, hfd', h⟩
            rw [hfde] at hfd'; cases hfd'
            exact ⟨m', v, e, h⟩
        · rcases (het c).1 hcc with h | h
          · exact .inl h
          · refine .inr ?_
            have := (has c).1 h
            obtain ⟨hn, m', v, e, hmw, hfa, hv⟩ := this
            rw [hyield] at h
            obtain ⟨l, hl, hlc⟩ := Plan.yields_leaf h
            rw [Plan.unions_leaves] at hl
            rcases hl with rfl | ⟨p, hp, hl⟩
            · simp [Plan.Yields] at hlc
            · obtain ⟨m', hm', rfl⟩ := List.mem_map.1 hp
              have hlne : l ≠ .codes [] := by rintro rfl; simp [Plan.Yields] at hlc
              unfold methodPlan at hl
              split at hl
              · split at hl
                · rw [methodAssignments_leaves hfd hlne _ (hok m')] at hl
                  rcases hl with ⟨hin, hlen, htgt, he, hl⟩ | ⟨hin, hlen, htgt, he, hl⟩
                  · exact (extract_some ascii (foundCode_yields hl hlc)).2.1
                  · subst hl; exact hlc.elim
                · simp only [Plan.leaves, List.mem_singleton] at hl; exact absurd hl hlne
              · simp only [Plan.leaves, List.mem_singleton] at hl; exact absurd hl hlne
  have hpos : ∀ g, t.st.field = some g → ∃ p, CodeMethod.getFieldPosition spec.fields g.name = some p := by
    intro g hg
    have hp := hd.1.2
    rw [hg] at hp
    simp only [ite_eq_right_iff, List.cons_ne_nil, imp_false] at hp
    exact Option.ne_none_iff_exists'.1 hp
  refine ⟨fun c => ?_, fun c hcc => (hmeth.2 c hcc).elim (hownw c) id, fun name => ?_, fun fd hfd => ?_⟩
  · rw [hmeth.1, hown]
    constructor
    · rintro (⟨h1, h2⟩ | ⟨h1, h2⟩)
      · exact ⟨h1, .inl h2⟩
      · exact ⟨h1, .inr h2⟩
    · rintro ⟨h1, h2 | h2⟩
      · exact .inl ⟨h1, h2⟩
      · exact .inr ⟨h1, h2⟩
  · rw [hf, t.field]
    constructor
    · rintro ⟨p, h⟩
      cases hg : t.st.field with
      | none => rw [hg] at h; cases h
      | some g =>
        obtain ⟨p', hp'⟩ := hpos g hg
        rw [hg] at h
        simp only [Option.bind_some, hp', Option.map_some, Option.some.injEq, ErrorCodeField.mk.injEq] at h
        obtain ⟨e, he, hv, hr⟩ := (s.field g hg).resolve_left (by simp)
        obtain ⟨e', he', hu⟩ := CodeMethod.looked_strExpr he
        exact ⟨e', he', by rw [← hu]; exact hv, by rw [← hu]; exact CodeMethod.receiverField_iff.1 ⟨g, hr, h.1⟩⟩
    · rintro ⟨e, he, hv, hfr⟩
      obtain ⟨sel, hsel, hname⟩ := CodeMethod.receiverField_iff.2 hfr
      obtain ⟨g, hg, h⟩ := (hc.exprs e he).field hv sel hsel
      rcases h with h | h
      · obtain ⟨p, hp⟩ := hpos g hg
        rw [h, hname] at hp
        exact ⟨p, by rw [hg]; simp only [Option.bind_some, h, hname, hp, Option.map_some]⟩
      · exact absurd h (CodeMethod.not_said hc.silent)
  · rw [hf, t.field] at hfd
    cases hg : t.st.field with
    | none => rw [hg] at hfd; cases hfd
    | some g =>
      obtain ⟨p, hp⟩ := hpos g hg
      rw [hg] at hfd
      simp only [Option.bind_some, hp, Option.map_some, Option.some.injEq] at hfd
      subst hfd
      unfold CodeMethod.getFieldPosition at hp
      split at hp
      · cases hp
      · rename_i gs hgs
        obtain ⟨k, rfl, hk⟩ := fieldPositionLoop_spec _ _ _ _ hp
        exact ⟨gs, hgs, by simpa using hk⟩

/-! ## Termination and panics -/

theorem planResult_ok : ∀ p : BodyPlan, p.panics = false → p.targets = [] → ∃ r, planResult p = .ok r := by
  intro p
  induction p with
  | codes s => intro _ _; exact ⟨_, rfl⟩
  | report d => intro _ _; exact ⟨_, rfl⟩
  | panic l => intro h _; simp [Plan.panics] at h
  | call g => intro _ h; simp [Plan.targets] at h
  | visit g => intro _ h; simp [Plan.targets] at h
  | union a b iha ihb =>
    intro h h'
    simp only [Plan.panics, Bool.or_eq_false_iff] at h
    simp only [Plan.targets, List.append_eq_nil_iff] at h'
    obtain ⟨r, hr⟩ := iha h.1 h'.1
    obtain ⟨r', hr'⟩ := ihb h.2 h'.2
    exact ⟨_, by simp only [planResult, hr, hr', bind, Except.bind]; rfl⟩
  | minus a s ih =>
    intro h h'
    obtain ⟨r, hr⟩ := ih h h'
    exact ⟨_, by simp only [planResult, hr, bind, Except.bind]; rfl⟩

theorem foundCode_leaf {x : Found} {l : BodyPlan} (h : l ∈ (foundCode x).leaves) :
    (∃ s, l = .codes s) ∨ ∃ d, l = .report d := by
  simp only [foundCode, Plan.leaves, List.mem_append, reports_leaves, List.mem_singleton] at h
  rcases h with (h | ⟨d, -, h⟩) | h
  · exact .inl ⟨_, h⟩
  · exact .inr ⟨d, h⟩
  · exact .inl ⟨_, h⟩

theorem codeMethod_of {env : Env} {td : TypeDecls} {err : GoType} {m : FnId} {receiver : Option Ident}
    (h : getCodeFuncFromError env td err = some (m, receiver)) : CodeMethod env td err m := by
  unfold getCodeFuncFromError at h
  split at h
  · cases h
  rename_i m' hf
  have : m = m' := by split at h <;> simp at h <;> exact h.1.symm
  subst this
  exact ⟨List.mem_of_find?_eq_some hf, subset_iff.1 (by simpa using List.find?_some hf)⟩

/-- **C21, C22** for error types: tagging a type terminates without panic, if the method bodies are parsed
programs, and the return statements of the `Code` method return one value each, or none if the result is
named (which the type checker guarantees). -/
theorem tagging_total (env : Env) (d : Decls) (td : TypeDecls) (spec : TypeSpec) (err : GoType) (fuel : Nat)
    (enough : Analyse.bound env ≤ fuel)
    (parsed : ∀ m, Taint.BodyOk ((env.func m).body.getD []))
    (arity : ∀ m rs, CodeMethod env td err m → CodeExec.Returns ((env.func m).body.getD []) rs →
      (∃ e, rs = [e]) ∨ (rs = [] ∧ ∃ i, NamedResult env m i)) :
    ∃ r, tagErrorType env d td fuel spec err = .ok r := by
  unfold tagErrorType
  split
  · exact ⟨_, rfl⟩
  · split
    · exact ⟨_, rfl⟩
    · split
      · exact ⟨_, rfl⟩
      · rename_i m receiver hm
        have hgood := CodeMethod.returnStmts_good (P := fun _ => False) (env := env) (f := m) (receiver := receiver)
          (CodeMethod.runGood_none (parsed m) enough) enough
          (Node.inspectList CodeMethod.intoCode ((env.func m).body.getD [])) ⟨[], [], none, []⟩
          (.inr fun id rs h => arity m rs (codeMethod_of hm) ⟨id, (mem_inspectList _ _ _).1 h⟩)
        rcases hgood with ⟨st, hst, -⟩ | ⟨_, h, -⟩
        · simp only [CodeMethod.analyse, hst, bind, Except.bind, pure, Except.pure]
          cases hres : (CodeMethod.outcome spec.fields (d.pos m) st).1 with
          | none => exact ⟨_, rfl⟩
          | some et =>
            simp only
            have : ∃ r, analyseMethodsOfErrorType env td et err = .ok r := by
              unfold analyseMethodsOfErrorType
              split
              · exact ⟨_, rfl⟩
              · rename_i hsome
                cases hfd : et.field with
                | none => exact absurd hfd hsome
                | some fd =>
                have hleaf : ∀ l ∈ (Plan.unions ((collectMethodsForErrorType env td err).map (methodPlan env td et))).leaves,
                    (∃ s, l = .codes s) ∨ ∃ d, l = .report d := by
                  intro l hl
                  by_cases hl0 : l = .codes []
                  · exact .inl ⟨_, hl0⟩
                  rw [Plan.unions_leaves] at hl
                  rcases hl with hl | ⟨p, hp, hl⟩
                  · exact .inl ⟨_, hl⟩
                  · obtain ⟨m', -, rfl⟩ := List.mem_map.1 hp
                    unfold methodPlan at hl
                    split at hl
                    · split at hl
                      · rw [methodAssignments_leaves hfd hl0] at hl
                        · rcases hl with ⟨-, -, -, -, hl⟩ | ⟨-, -, -, -, hl⟩
                          · exact foundCode_leaf hl
                          · exact .inr ⟨_, hl⟩
                        · intro id lhs rhs hin hlen hnil
                          subst hnil
                          exact (parsed m').assigns id lhs [] (occurs_of_within ((mem_inspectList _ _ _).1 hin))
                            (fun h => hlen (by simp [h])) rfl
                      · simp only [Plan.leaves, List.mem_singleton] at hl; exact absurd hl hl0
                    · simp only [Plan.leaves, List.mem_singleton] at hl; exact absurd hl hl0
                obtain ⟨r, hr⟩ := planResult_ok (Plan.unions ((collectMethodsForErrorType env td err).map (methodPlan env td et)))
                  (by
                    cases h : (Plan.unions ((collectMethodsForErrorType env td err).map (methodPlan env td et))).panics with
                    | false => rfl
                    | true =>
                      obtain ⟨l, hl⟩ := (Plan.panics_iff _).1 h
                      rcases hleaf _ hl with ⟨s, h⟩ | ⟨s, h⟩ <;> cases h)
                  (by
                    rw [List.eq_nil_iff_forall_not_mem]
                    intro g hg
                    rcases (Plan.mem_targets _).1 hg with hl | hl <;>
                      rcases hleaf _ hl with ⟨s, h⟩ | ⟨s, h⟩ <;> cases h)
                exact ⟨_, by simp only [hr, bind, Except.bind]; rfl⟩
            obtain ⟨r, hr⟩ := this
            simp only [hr]
            exact ⟨_, rfl⟩
        · exact h.elim

/-- Without those guarantees, tagging a type still terminates, possibly with a panic. -/
theorem tagging_terminates (env : Env) (d : Decls) (td : TypeDecls) (spec : TypeSpec) (err : GoType) (fuel : Nat)
    (enough : Analyse.bound env ≤ fuel) : tagErrorType env d td fuel spec err ≠ .error .outOfFuel := by
  have hplan : ∀ p : BodyPlan, planResult p ≠ .error .outOfFuel := by
    intro p
    induction p with
    | codes s => intro h; cases h
    | report d => intro h; cases h
    | panic l => intro h; cases h
    | call g => intro h; cases h
    | visit g => intro h; cases h
    | union a b iha ihb =>
      intro h
      simp only [planResult, bind, Except.bind] at h
      split at h
      · rename_i hr; cases h; exact iha hr
      · split at h
        · rename_i hr; cases h; exact ihb hr
        · cases h
    | minus a s ih =>
      intro h
      simp only [planResult, bind, Except.bind] at h
      split at h
      · rename_i hr; cases h; exact ih hr
      · cases h
  intro h
  unfold tagErrorType at h
  split at h
  · cases h
  · split at h
    · cases h
    · split at h
      · cases h
      · rename_i m receiver hm
        simp only [bind, Except.bind] at h
        split at h
        · rename_i e hr
          cases h
          unfold CodeMethod.analyse at hr
          simp only [bind, Except.bind] at hr
          split at hr
          · rename_i hr'
            cases hr
            rcases CodeMethod.returnStmts_good (P := fun _ => True) (env := env) (f := m) (receiver := receiver)
              (CodeMethod.runGood_any enough) enough
              (Node.inspectList CodeMethod.intoCode ((env.func m).body.getD [])) ⟨[], [], none, []⟩
              (.inl fun _ => trivial) with ⟨st, hst, -⟩ | ⟨loc, -, hst⟩
            · rw [hst] at hr'; cases hr'
            · rw [hst] at hr'; cases hr'
          · cases hr
        · split at h
          · cases h
          · split at h
            · rename_i hr
              cases h
              unfold analyseMethodsOfErrorType at hr
              split at hr
              · cases hr
              · simp only [bind, Except.bind] at hr
                split at hr
                · rename_i hr'; cases hr; exact hplan _ hr'
                · cases hr
            · cases h

/-! ## Examples and witnesses -/

/-- A package with one method `Code` with the given body (and named result), for the type `*Err`; `constants` are
the values of constant expressions.  The receiver `e` is object 1. -/
def codeEnv (objects : List ObjInfo) (constants : List (NodeId × GoString)) (result : List Ident) (body : List Node) : Env :=
  { Tracking.plainEnv objects with
    funcs := [⟨100, some ⟨101, b!"Code", none⟩, ⟨[], some [⟨result, 11⟩], 10⟩, some body, 20, 100⟩]
    methods := fun n => if n = b!"Code" then [0] else []
    value := fun n => (constants.lookup n).map .str }

/-- The method's receiver and type. -/
def codeTypes : TypeDecls := ⟨fun _ => .pointer (.named 0), fun _ => [⟨200, b!"e", some 1⟩], fun _ => false, fun _ => [b!"Code"]⟩
def codeDecls : Decls := ⟨fun _ => b!"Code", fun _ => true, fun _ => some 0, fun _ => none, fun _ => false, fun _ => 0⟩
/-- `type Err struct { io.Reader; Msg, TheCode string }`. -/
def codeSpec : TypeSpec := ⟨300, .named 0, some [[], [b!"Msg", b!"TheCode"]]⟩

/-- The objects: `x` = 0, declared in the body, and the receiver `e` = 1. -/
def exObjects : List ObjInfo := [⟨.var, 30, .other⟩, ⟨.var, 5, .other⟩]

/-- `func (e *Err) Code() string { x := "a-code"; if … { return x }; return e.TheCode }`. -/
def exBody : List Node :=
  [.assign 1 [.ident ⟨2, b!"x", some 0⟩] [.basicLit 3],
   .other 4 [.ret 5 [.ident ⟨6, b!"x", some 0⟩]],
   .ret 7 [.selector 8 (.ident ⟨9, b!"e", some 1⟩) ⟨10, b!"TheCode", none⟩]]
def exEnv : Env := codeEnv exObjects [(3, b!"a-code")] [] exBody
def noExtra : Extra := ⟨fun _ => false, fun _ => false⟩

theorem exEnv_prints : PrintsAscii exEnv.isPrint := fun _ _ => rfl

theorem exBody_nodes : Node.inspectList (fun _ => true) exBody =
    [.assign 1 [.ident ⟨2, b!"x", some 0⟩] [.basicLit 3], .ident ⟨2, b!"x", some 0⟩, .basicLit 3,
     .other 4 [.ret 5 [.ident ⟨6, b!"x", some 0⟩]], .ret 5 [.ident ⟨6, b!"x", some 0⟩], .ident ⟨6, b!"x", some 0⟩,
     .ret 7 [.selector 8 (.ident ⟨9, b!"e", some 1⟩) ⟨10, b!"TheCode", none⟩],
     .selector 8 (.ident ⟨9, b!"e", some 1⟩) ⟨10, b!"TheCode", none⟩, .ident ⟨9, b!"e", some 1⟩, .ident ⟨10, b!"TheCode", none⟩] := rfl

/-- The type is accepted with its constant and its field. -/
theorem ex_tagged : tagErrorType exEnv codeDecls codeTypes (Analyse.bound exEnv) codeSpec (.pointer (.named 0)) =
    .ok (some (0, ⟨[b!"a-code"], some ⟨b!"TheCode", 2⟩⟩), []) := by rfl

theorem exEnv_decl (v : ObjId) : (exEnv.object v).decl = .other := by
  match v with
  | 0 => rfl
  | 1 => rfl
  | n + 2 => simp [Env.object, exEnv, codeEnv, Tracking.plainEnv, exObjects]

theorem exEnv_source {v : ObjId} {e : Node} (h : Flow.Source exEnv exBody v e) : v = 0 ∧ e = .basicLit 3 := by
  rcases h with ⟨_, _, _, _, hd, -⟩ | ⟨id, lhs, rhs, ho, hl, k, l, t, h1, h2, h3, h4⟩
  · rw [exEnv_decl] at hd; cases hd
  · rw [Occurs, ← mem_inspectList, exBody_nodes] at ho
    simp only [List.mem_cons, List.not_mem_nil, or_false, reduceCtorEq, Node.assign.injEq] at ho
    obtain ⟨rfl, rfl, rfl⟩ := ho
    match k with
    | 0 => simp at h1 h4; subst h1; simp [Node.unparen] at h2; subst h2; exact ⟨by simpa using h3.symm, h4.symm⟩
    | k + 1 => simp at h1

theorem exBody_returns {rs : List Node} (h : CodeExec.Returns exBody rs) :
    rs = [.ident ⟨6, b!"x", some 0⟩] ∨ rs = [.selector 8 (.ident ⟨9, b!"e", some 1⟩) ⟨10, b!"TheCode", none⟩] := by
  obtain ⟨id, h⟩ := h
  have h := occurs_of_within h
  rw [Occurs, ← mem_inspectList, exBody_nodes] at h
  simp only [List.mem_cons, List.not_mem_nil, or_false, reduceCtorEq, false_or, Node.ret.injEq] at h
  rcases h with ⟨-, h⟩ | ⟨-, h⟩
  · exact .inl h
  · exact .inr h

theorem exBody_strVar {v : ObjId} (h : StrVar exEnv 0 exBody v) : v = 0 := by
  induction h with
  | bare h _ _ => rcases exBody_returns h with h | h <;> cases h
  | ret h hv =>
    obtain ⟨-, i, hi, ho⟩ := hv
    rcases exBody_returns h with h | h <;> cases h
    · simp [Node.unparen] at hi; subst hi; simpa using ho.symm
    · simp [Node.unparen] at hi
  | source _ hs hv =>
    obtain ⟨-, rfl⟩ := exEnv_source hs
    obtain ⟨-, i, hi, -⟩ := hv
    simp [Node.unparen] at hi

theorem exBody_strExpr {e : Node} (h : StrExpr exEnv 0 exBody e) : e = .ident ⟨6, b!"x", some 0⟩ ∨
    e = .selector 8 (.ident ⟨9, b!"e", some 1⟩) ⟨10, b!"TheCode", none⟩ ∨ e = .basicLit 3 := by
  rcases h with h | ⟨v, -, h⟩
  · rcases exBody_returns h with h | h <;> cases h <;> simp
  · exact .inr (.inr (exEnv_source h).2)

theorem exBody_noLit (p : ObjId) : ¬ Flow.LitParam exBody p := by
  rintro ⟨id, fn, type, b, ho, -⟩
  rw [Occurs, ← mem_inspectList, exBody_nodes] at ho
  simp at ho

theorem exBody_hidden (v : ObjId) : ¬ Hidden noExtra exBody v := by
  rintro (⟨id, k, l, y, b, i, ho, -⟩ | ⟨id, lhs, rhs, l, i, -, h, -⟩ | ⟨id, y, i, ho, -⟩)
  · rw [Occurs, ← mem_inspectList, exBody_nodes] at ho; simp at ho
  · simp [noExtra] at h
  · rw [Occurs, ← mem_inspectList, exBody_nodes] at ho; simp at ho

/-- All hypotheses of `code_method_covered_partial` and `recorded_exact_partial` hold for this type. -/
example : TheCodeMethod exEnv codeTypes (.pointer (.named 0)) 0 (some ⟨200, b!"e", some 1⟩) ∧
    PrintsAscii exEnv.isPrint ∧ (∀ m, Taint.BodyOk ((exEnv.func m).body.getD [])) ∧
    Supported exEnv noExtra 0 ((exEnv.func 0).body.getD []) (some ⟨200, b!"e", some 1⟩) ∧
    Typed exEnv 0 ((exEnv.func 0).body.getD []) ∧ Scoped exEnv 0 ((exEnv.func 0).body.getD []) := by
  refine ⟨⟨⟨by decide, .inl rfl⟩, fun m' h => ?_, fun r => ⟨fun h => by cases h; rfl, fun h => by cases h; rfl⟩⟩,
    exEnv_prints, ?_, ⟨?_, ?_, ?_⟩, ⟨?_, ?_⟩, ⟨?_, ?_⟩⟩
  · have := h.1
    rw [show exEnv.methods b!"Code" = [0] from rfl] at this
    simpa using this
  · intro m
    match m with
    | 0 =>
      refine ⟨fun id fn type b ho => ?_, fun id lhs rhs ho _ => ?_⟩
      · rw [Occurs, ← mem_inspectList, show (exEnv.func 0).body.getD [] = exBody from rfl, exBody_nodes] at ho
        simp at ho
      · rw [Occurs, ← mem_inspectList, show (exEnv.func 0).body.getD [] = exBody from rfl, exBody_nodes] at ho
        simp only [List.mem_cons, List.not_mem_nil, or_false, reduceCtorEq, Node.assign.injEq] at ho
        obtain ⟨-, -, rfl⟩ := ho; simp
    | m + 1 =>
      have : (exEnv.func (m + 1)).body.getD [] = [] := by simp [Env.func, exEnv, codeEnv]
      rw [this]
      exact ⟨fun _ _ _ _ ⟨_, h, _⟩ => by simp at h, fun _ _ _ ⟨_, h, _⟩ => by simp at h⟩
  · intro v _; exact exBody_hidden v
  · intro r v hr hv
    cases hr; simp at hv; subst hv
    rintro (⟨e, h⟩ | ⟨d, h⟩ | h)
    · exact absurd (exEnv_source (.inr h)).1 (by simp)
    · rcases h with ⟨_, _, _, hd, -⟩ | ⟨id, lhs, rhs, ho, hl, -⟩
      · rw [exEnv_decl] at hd; cases hd
      · rw [Occurs, ← mem_inspectList, show (exEnv.func 0).body.getD [] = exBody from rfl, exBody_nodes] at ho
        simp only [List.mem_cons, List.not_mem_nil, or_false, reduceCtorEq, Node.assign.injEq] at ho
        obtain ⟨-, rfl, rfl⟩ := ho; simp at hl
    · exact exBody_hidden _ h
  · intro _; rfl
  · intro e i v he hi ho hk
    rcases exBody_strExpr he with rfl | rfl | rfl
    · rfl
    · simp [Node.unparen] at hi
    · simp [Node.unparen] at hi
  · rintro i v (⟨e, he, hv, hi⟩ | ⟨h, -⟩) ho
    · rcases exBody_strExpr he with rfl | rfl | rfl
      · simp [Node.unparen] at hi; subst hi; decide
      · simp [Node.unparen] at hi
      · simp [Node.unparen] at hi
    · rcases exBody_returns h with h | h <;> cases h
  · exact (Tracking.scope_of_noLits exEnv exBody exBody_noLit).1
  · intro i _; exact (Tracking.scope_of_noLits exEnv exBody exBody_noLit).2 i

/-- `func (e *Err) Code() string { e = other(); return e.TheCode }`. -/
def reassignedBody : List Node :=
  [.assign 1 [.ident ⟨2, b!"e", some 1⟩] [.call 3 (.ident ⟨4, b!"other", none⟩) []],
   .ret 7 [.selector 8 (.ident ⟨9, b!"e", some 1⟩) ⟨10, b!"TheCode", none⟩]]
def reassignedEnv : Env := codeEnv exObjects [] [] reassignedBody

/-- A state in which all variables are empty and all fields hold `s`. -/
def quiet (s : GoString) : State := ⟨fun _ _ => [], fun _ => s⟩

/-- **C29 does not hold of the code** for a method that reassigns its receiver variable: the type is accepted
without diagnostic, and the method may return a code that the receiver never had. -/
theorem receiver_reassigned :
    tagErrorType reassignedEnv codeDecls codeTypes (Analyse.bound reassignedEnv) codeSpec (.pointer (.named 0)) =
      .ok (some (0, ⟨[], some ⟨b!"TheCode", 2⟩⟩), []) ∧
    Execution reassignedEnv noExtra 0 reassignedBody (some ⟨200, b!"e", some 1⟩) [quiet b!"own-code"] ∧
    Result reassignedEnv noExtra 0 reassignedBody (some ⟨200, b!"e", some 1⟩) (quiet b!"own-code") b!"other-code" := by
  refine ⟨rfl, .start fun _ _ => .inl rfl, ?_⟩
  have hocc : Occurs (.assign 1 [.ident ⟨2, b!"e", some 1⟩] [.call 3 (.ident ⟨4, b!"other", none⟩) []]) reassignedBody :=
    ⟨_, List.mem_cons_self .., .self⟩
  refine .expr (e := .selector 8 (.ident ⟨9, b!"e", some 1⟩) ⟨10, b!"TheCode", none⟩)
    ⟨7, _, List.mem_cons_of_mem _ (List.mem_cons_self ..), .self⟩ (.reassigned (name := b!"TheCode") rfl ?_ rfl rfl (.inl ⟨_, _, _, _, hocc, rfl, 0, _, _, rfl, rfl, rfl, rfl⟩))
  exact ⟨8, _, _, _, _, rfl, rfl, rfl, rfl, rfl⟩

/-- `func (e *Err) Code() (x string) { defer func() { x = "b-code" }(); return "a-code" }`. -/
def deferredBody : List Node :=
  [.other 1 [.call 2 (.funcLit 3 1 ⟨[], none, 0⟩ [.assign 4 [.ident ⟨5, b!"x", some 0⟩] [.basicLit 6]]) []],
   .ret 7 [.basicLit 8]]
/-- (The position 15 of `x` lies in the result list.) -/
def deferredEnv : Env :=
  codeEnv [⟨.var, 15, .other⟩, ⟨.var, 5, .other⟩] [(6, b!"b-code"), (8, b!"a-code")] [⟨12, b!"x", some 0⟩] deferredBody

/-- **C29 does not hold of the code** for a method whose deferred call changes the named result: the type is
accepted with the code `a-code` only, without diagnostic, and the method returns `b-code`. -/
theorem deferred_result :
    tagErrorType deferredEnv codeDecls codeTypes (Analyse.bound deferredEnv) codeSpec (.pointer (.named 0)) =
      .ok (some (0, ⟨[b!"a-code"], none⟩), []) ∧
    ∃ σ, Execution deferredEnv ⟨fun _ => false, fun _ => true⟩ 0 deferredBody (some ⟨200, b!"e", some 1⟩) [σ, quiet []] ∧
      Result deferredEnv ⟨fun _ => false, fun _ => true⟩ 0 deferredBody (some ⟨200, b!"e", some 1⟩) σ b!"b-code" := by
  refine ⟨rfl, ⟨fun v _ => if v = 0 then b!"b-code" else [], fun _ => []⟩, .step (.start fun _ _ => .inl rfl) ?_, ?_⟩
  · intro v n
    by_cases hv : v = 0
    · subst hv
      refine .inr (.source (e := .basicLit 6) (.inr ⟨4, [.ident ⟨5, b!"x", some 0⟩], [.basicLit 6], ?_, rfl, 0, _, _, rfl, rfl, rfl, rfl⟩) (.const rfl))
      rw [Occurs, ← mem_inspectList]
      simp [deferredBody, Node.inspectList, Node.inspect]
    · exact .inl (by simp [hv, quiet])
  · exact Result.deferred (σ := ⟨fun v _ => if v = 0 then b!"b-code" else [], fun _ => []⟩) (i := ⟨12, b!"x", some 0⟩) (v := 0) (n := 0) rfl ⟨11, rfl⟩ rfl

end Serum.Props.ErrorTypes
