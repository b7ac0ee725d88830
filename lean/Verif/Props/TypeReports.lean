import Verif.Props.ErrorTypes
import Verif.Spec.TypeReportSpec

/-!
# C52 — reports about error types

Exactly which reports the declaration of an error type causes, and what is recorded for the type whether or not there are any.
-/

namespace Serum.Props.TypeReports
open Serum Serum.CodeExec Serum.CodeFormat Serum.TypeReports Serum.Props.ErrorTypes

/-! ## Constants -/

theorem fromConstant_some {isPrint : Nat → Bool} (hp : PrintsAscii isPrint) {v : Const} {c : GoString} (hn : c ≠ []) :
    getErrorCodeFromConstant isPrint v = some c ↔ ACode v c := by
  cases v with
  | other => simp [getErrorCodeFromConstant, ACode]
  | str s =>
    obtain ⟨h1, h2, h3, -⟩ := Extract.constant_code_partial isPrint hp s
    by_cases hw : WellFormed s ∧ s.length ≤ 70
    · rw [h1 hw]
      constructor
      · intro h; cases h; exact ⟨rfl, hw⟩
      · rintro ⟨h, -⟩; cases h; rfl
    · by_cases hne : s = []
      · subst hne; rw [h2]
        constructor
        · intro h; cases h; exact absurd rfl hn
        · rintro ⟨h, -⟩; cases h; exact absurd rfl hn
      · rw [h3 hw hne]
        constructor
        · intro h; cases h
        · rintro ⟨h, hw'⟩; cases h; exact absurd hw' hw

theorem fromConstant_none {isPrint : Nat → Bool} (hp : PrintsAscii isPrint) {v : Const} :
    getErrorCodeFromConstant isPrint v = none ↔ NoCode v := by
  cases v with
  | other => simp [getErrorCodeFromConstant, NoCode, ACode]
  | str s =>
    obtain ⟨h1, h2, h3, -⟩ := Extract.constant_code_partial isPrint hp s
    by_cases hw : WellFormed s ∧ s.length ≤ 70
    · rw [h1 hw]
      exact ⟨nofun, fun h => absurd ⟨rfl, hw⟩ (h.1 s)⟩
    · by_cases hne : s = []
      · subst hne; rw [h2]
        exact ⟨nofun, fun h => absurd rfl h.2⟩
      · rw [h3 hw hne]
        refine ⟨fun _ => ⟨?_, by simpa using hne⟩, fun _ => rfl⟩
        rintro c ⟨h, h'⟩; cases h; exact hw h'

theorem aCode_ne {v : Const} {c : GoString} (h : ACode v c) : c ≠ [] := by
  rcases h.2.1 with ⟨f, m, z, rfl, -⟩ | ⟨x, rfl, -⟩ <;> simp

/-! ## The `Code` method -/

section
variable {env : Env} {f : FnId} {body : List Node} {receiver : Option Ident} {st : TagState}

theorem taken_field (hfin : CodeMethod.Finished env f body receiver st) :
    TakenField env f body receiver (st.field.map Ident.name) := by
  constructor
  · intro name h
    cases hg : st.field with
    | none => rw [hg] at h; cases h
    | some g =>
      rw [hg] at h; cases h
      obtain ⟨e, he, hv, hr⟩ := (hfin.step.field g hg).resolve_left (by simp)
      exact ⟨e, he, hv, CodeMethod.receiverField_iff.1 ⟨g, hr, rfl⟩⟩
  · rintro h n name ⟨hn, hv, hf⟩
    obtain ⟨sel, hsel, -⟩ := CodeMethod.receiverField_iff.2 hf
    obtain ⟨g, hg, -⟩ := (hfin.exprs n hn).field hv sel hsel
    rw [hg] at h; cases h

theorem method_codes (ascii : PrintsAscii env.isPrint) (hfin : CodeMethod.Finished env f body receiver st) (c : GoString) :
    c ∈ st.codes ↔ ∃ n v, Looked env f body n ∧ env.value n.unparen.id = some v ∧ ACode v c := by
  constructor
  · intro h
    rcases hfin.step.codes c h with h | ⟨hn, e, v, he, hv, hg⟩
    · simp at h
    · exact ⟨e, v, he, hv, (fromConstant_some ascii hn).1 hg⟩
  · rintro ⟨n, v, hn, hv, hc⟩
    exact (hfin.exprs n hn).const v c hv ((fromConstant_some ascii (aCode_ne hc)).2 hc) (aCode_ne hc)

theorem receiverField_none {e : Node} : CodeMethod.receiverField receiver e = none ↔ ∀ name, ¬ FieldOfReceiver receiver e name := by
  constructor
  · intro h name hf
    obtain ⟨sel, hs, -⟩ := CodeMethod.receiverField_iff.2 hf
    rw [h] at hs; cases hs
  · intro h
    cases hr : CodeMethod.receiverField receiver e with
    | none => rfl
    | some sel => exact absurd (CodeMethod.receiverField_iff.1 ⟨sel, hr, rfl⟩) (h _)

theorem method_problems (ascii : PrintsAscii env.isPrint) (hfin : CodeMethod.Finished env f body receiver st) (d : TagDiag) :
    d ∈ st.diags ↔ MethodProblem env f body receiver (st.field.map Ident.name) d := by
  constructor
  · intro h
    rcases hfin.step.diags d h with h | h
    · simp at h
    · cases h with
      | bad h1 h2 h3 h4 => subst h4; exact .constant h1 h2 ((fromConstant_none ascii).1 h3) ((because_iff (ascii 10 (by omega))).2 rfl)
      | second h1 h2 h3 h4 h5 h6 h7 h8 h9 =>
        subst h9
        exact .second ⟨h1, h3, CodeMethod.receiverField_iff.1 ⟨_, h5, rfl⟩⟩ (by rw [h8]; rfl) h7
      | other h1 h2 h3 h4 h5 => subst h5; exact .other h1 h2 (receiverField_none.1 h3) h4
      | outOfScope h1 h2 h3 => subst h3; exact .outside h1 h2
      | destructured h1 h2 h3 => subst h3; exact .destructured h1 h2
  · intro h
    cases h with
    | constant h1 h2 h3 h4 => rw [(because_iff (ascii 10 (by omega))).1 h4]; exact (hfin.exprs _ h1).bad _ h2 ((fromConstant_none ascii).2 h3)
    | second h1 h2 h3 =>
      obtain ⟨hn, hv, hf⟩ := h1
      obtain ⟨sel, hsel, hname⟩ := CodeMethod.receiverField_iff.2 hf
      obtain ⟨g, hg, h⟩ := (hfin.exprs _ hn).field hv sel hsel
      rw [hg] at h2; cases h2
      subst hname
      exact h.resolve_left fun h => h3 h.symm
    | other h1 h2 h3 h4 => exact (hfin.exprs _ h1).other h2 (receiverField_none.2 h3) h4
    | outside h1 h2 => exact (hfin.refs _ h1).2 h2
    | destructured h1 h2 => exact (hfin.vars _ h1).destructs _ h2
end

/-! ## Positions -/

theorem fieldPosition_none {name : GoString} : ∀ {gs : List (List GoString)} {i : Nat},
    CodeMethod.fieldPositionLoop name i gs = none ↔ ∀ ns ∈ gs, name ∉ ns
  | [], i => by simp [CodeMethod.fieldPositionLoop]
  | ns :: gs, i => by
    unfold CodeMethod.fieldPositionLoop
    split
    · rename_i hn
      rw [fieldPosition_none]; simp [hn]
    · split
      · rename_i k hk
        rw [List.findIdx?_eq_some_iff_getElem] at hk
        obtain ⟨hlt, hk, -⟩ := hk
        simp only [reduceCtorEq, List.mem_cons, forall_eq_or_imp, false_iff]
        intro h
        have : ns[k] = name := by simpa using hk
        exact h.1 (this ▸ List.getElem_mem _)
      · rename_i hk
        rw [fieldPosition_none]
        simp only [List.findIdx?_eq_none_iff, beq_eq_false_iff_ne, ne_eq] at hk
        simp only [List.mem_cons, forall_eq_or_imp]
        exact ⟨fun h => ⟨fun hm => hk name hm rfl, h⟩, fun h => h.2⟩

theorem getFieldPosition_none {spec : TypeSpec} {name : GoString} :
    CodeMethod.getFieldPosition spec.fields name = none ↔ ¬ HasField spec name := by
  unfold CodeMethod.getFieldPosition HasField
  cases h : spec.fields with
  | none => simp
  | some gs => simp [fieldPosition_none]

theorem paramPosition_slots {o : ObjId} : ∀ {gs : List Field} {pos : Nat},
    paramPositionLoop o pos gs = ((slots gs).findIdx? (fun s => s.any fun j => j.obj == some o)).map (pos + ·)
  | [], pos => by simp [paramPositionLoop, slots]
  | g :: gs, pos => by
    unfold paramPositionLoop
    rw [show slots (g :: gs) = (if g.names = [] then [none] else g.names.map some) ++ slots gs from rfl, List.findIdx?_append]
    split
    · rename_i hn
      rw [paramPosition_slots]
      simp only [hn, if_true, List.findIdx?_cons, List.findIdx?_nil, Option.any_none, Bool.false_eq_true, if_false,
        Option.map_none, Option.none_or, List.length_singleton, Option.map_map]
      congr 1; funext k; simp; omega
    · rename_i ns hn
      have hne : ¬ g.names = [] := fun h => hn h
      simp only [hne, if_false, List.findIdx?_map, List.length_map]
      have : ((fun s : Option Ident => s.any fun j => j.obj == some o) ∘ some) = fun n => n.obj == some o := by funext n; simp
      rw [this]
      cases hk : g.names.findIdx? (fun n => n.obj == some o) with
      | some k => simp
      | none =>
        simp only [Option.none_or]
        rw [paramPosition_slots, Option.map_map]
        congr 1; funext k; simp; omega

theorem getParamPosition_iff {env : Env} {m : FnId} {i : Ident} {p : Nat} :
    getParamPosition (env.func m).type i = some p ↔ Parameter env m i p := by
  unfold getParamPosition Parameter
  cases i.obj with
  | none => simp
  | some o => simp [paramPosition_slots]

theorem paramIdentLoop_slots (params : List Field) (target pos : Nat) (h : pos ≤ target) :
    paramIdentLoop target pos params = ((slots params)[target - pos]?).join := by
  induction params generalizing pos with
  | nil => simp [paramIdentLoop, slots]
  | cons g gs ih =>
    unfold paramIdentLoop
    simp only [slots, List.flatMap_cons]
    cases hn : g.names with
    | nil =>
      simp only [if_true]
      by_cases he : pos = target
      · subst he; simp
      · rw [if_neg he, ih (pos + 1) (by omega)]
        rw [List.getElem?_append_right (by simp; omega)]
        simp only [slots, List.length_singleton, Nat.sub_sub]
    | cons n ns =>
      simp only [reduceCtorEq, if_false]
      by_cases hlt : target < pos + (n :: ns).length
      · rw [if_pos hlt, List.getElem?_append_left (by simp at hlt ⊢; omega), List.getElem?_map]
        cases (n :: ns)[target - pos]? <;> rfl
      · rw [if_neg hlt, ih _ (by omega), List.getElem?_append_right (by simp at hlt ⊢; omega)]
        simp only [slots, List.length_map, Nat.sub_sub]

/-- **C26.** Positions count all parameters, unnamed ones included: the parameter at a position is what stands there in the list of parameters. -/
theorem parameter_at (type : FuncType) (p : Nat) : getParamIdent type p = ((slots type.params)[p]?).join := by
  rw [getParamIdent, paramIdentLoop_slots _ _ _ (Nat.zero_le _)]; rfl

-- `func(_ int, a, b string)`
example : getParamIdent ⟨[⟨[⟨2, b!"_", some 3⟩], 4⟩, ⟨[⟨6, b!"a", some 7⟩, ⟨8, b!"b", some 9⟩], 10⟩], none, 0⟩ 2 = some ⟨8, b!"b", some 9⟩ := by
  decide

/-! ## Assignments in methods -/

theorem extract_reports {env : Env} (ascii : PrintsAscii env.isPrint) {m : FnId} {e : Node} {d : Diag} :
    d ∈ (extractErrorCodeFromStringExpression env m e).2 ↔
      (∃ k, env.value e.id = some k ∧ NoCode k ∧ ∃ why, Because env.isPrint k why ∧ d = ⟨e.id, .badConstant why⟩) ∨
      (env.value e.id = none ∧ (∀ i p, e.unparen = .ident i → ¬ Parameter env m i p) ∧ d = ⟨e.id, .notConstant⟩) ∨
      (env.value e.id = none ∧ ∃ i p, e.unparen = .ident i ∧ Parameter env m i p ∧
        ¬ ((env.func m).declName ≠ none ∧ env.facts.ctor (env.funcObj m) = some p) ∧ d = ⟨i.id, .paramNotDeclared i.name⟩) := by
  unfold extractErrorCodeFromStringExpression
  cases hv : env.value e.id with
  | some k =>
    simp only [Option.some.injEq, exists_eq_left', reduceCtorEq, false_and, or_false]
    cases hc : getErrorCodeFromConstant env.isPrint k with
    | none => simp [(fromConstant_none ascii).1 hc, because_iff (ascii 10 (by omega))]
    | some c =>
      simp only [List.not_mem_nil, false_iff, not_and]
      intro h
      rw [(fromConstant_none ascii).2 h] at hc; cases hc
  | none =>
    simp only [reduceCtorEq, false_and, exists_false, false_or, true_and]
    cases hu : e.unparen with
    | ident i =>
      cases hp : getParamPosition (env.func m).type i with
      | none =>
        have hno : ∀ p, ¬ Parameter env m i p := fun p h => by rw [getParamPosition_iff.2 h] at hp; cases hp
        simp only [hp, List.mem_singleton]
        constructor
        · rintro rfl
          exact .inl ⟨fun i' p h => by cases h; exact hno p, rfl⟩
        · rintro (⟨-, h⟩ | ⟨i', p, h, hp', -⟩)
          · exact h
          · cases h; exact absurd hp' (hno p)
      | some p =>
        have hpar := getParamPosition_iff.1 hp
        have huniq : ∀ p', Parameter env m i p' → p' = p := fun p' h => by
          rw [getParamPosition_iff.2 h] at hp; cases hp; rfl
        simp only [hp, checkIfExprIsErrorCodeParam, importErrorConstructorFact]
        constructor
        · intro h
          refine .inr ⟨i, p, rfl, hpar, ?_⟩
          by_cases hd : (env.func m).declName.isSome
          · simp only [hd, if_true] at h
            split at h
            · cases h
            · rename_i hne
              exact ⟨fun hh => hne hh.2, by simpa using h⟩
          · simp only [hd, Bool.false_eq_true, if_false, reduceCtorEq, List.mem_singleton] at h
            exact ⟨fun hh => hh.1 (by simpa using hd), h⟩
        · rintro (⟨h, -⟩ | ⟨i', p', hi, hp', hn, rfl⟩)
          · exact absurd hpar (h i p rfl)
          · cases hi
            have := huniq p' hp'; subst this
            by_cases hd : (env.func m).declName.isSome
            · simp only [hd, if_true]
              rw [if_neg]
              · simp
              · intro hc; exact hn ⟨by intro h0; simp [h0] at hd, hc⟩
            · simp [hd]
    | _ => simp

theorem assignment_reports {env : Env} (ascii : PrintsAscii env.isPrint) (parsed : ∀ m', Taint.BodyOk ((env.func m').body.getD []))
    {td : TypeDecls} {et : ErrorType} {fd : ErrorCodeField} (hfd : et.field = some fd) {err : GoType} {o : Object}
    (named : getNamedType err = some o) {d : Diag} :
    d ∈ (Plan.unions ((collectMethodsForErrorType env td err).map (methodPlan env td et))).reports ↔
      ∃ m v, MethodWith env td err o m v ∧ AssignmentProblem env m v fd.name ⟨d.at_, .assignment d.msg⟩ := by
  have hok : ∀ m' id lhs rhs, .assign id lhs rhs ∈ Node.inspectList Analyse.intoFields ((env.func m').body.getD []) →
      lhs.length ≠ rhs.length → rhs ≠ [] := by
    intro m' id lhs rhs hin hlen hnil
    subst hnil
    exact (parsed m').assigns id lhs [] (occurs_of_within ((mem_inspectList _ _ _).1 hin)) (fun h => hlen (by simp [h])) rfl
  have hleaf : ∀ m v, Analyse.FieldLeaf env m (Node.inspectList Analyse.intoFields ((env.func m).body.getD [])) v fd.name (.report d) ↔
      AssignmentProblem env m v fd.name ⟨d.at_, .assignment d.msg⟩ := by
    intro m v
    constructor
    · rintro (⟨hm, hlen, ht, he, hl⟩ | ⟨hm, hlen, ht, he, hl⟩)
      · have hfa : Flow.FieldAssigned ((env.func m).body.getD []) v fd.name _ := ⟨_, _, _, _, (mem_inspectList _ _ _).1 hm, hlen, ht, he⟩
        simp only [foundCode, Plan.leaves, List.mem_append, reports_leaves, List.mem_singleton, reduceCtorEq, false_or, or_false,
          Plan.report.injEq] at hl
        obtain ⟨d', hd', rfl⟩ := hl
        rcases (extract_reports ascii).1 hd' with ⟨k, hv, hk, why, hw, rfl⟩ | ⟨hv, hp, rfl⟩ | ⟨hv, i, p, hi, hp, hn, rfl⟩
        · exact .constant hfa hv hk hw
        · exact .other hfa hv hp
        · exact .parameter hfa hv hi hp hn
      · cases hl
        exact .destructured ⟨_, _, _, _, (mem_inspectList _ _ _).1 hm, hlen, ht, he⟩
    · intro h
      have hx : ∀ e, Flow.FieldAssigned ((env.func m).body.getD []) v fd.name e → d ∈ (extractErrorCodeFromStringExpression env m e).2 →
          Analyse.FieldLeaf env m (Node.inspectList Analyse.intoFields ((env.func m).body.getD [])) v fd.name (.report d) := by
        rintro e ⟨id, lhs, rhs, k, hin, hlen, ht, he⟩ hd
        refine .assigned ((mem_inspectList _ _ _).2 hin) hlen ht he ?_
        simp only [foundCode, Plan.leaves, List.mem_append, reports_leaves]
        exact .inl (.inr ⟨d, hd, rfl⟩)
      obtain ⟨at_, msg⟩ := d
      generalize hg : (⟨at_, .assignment msg⟩ : TagDiag) = g at h
      cases h with
      | constant h1 h2 h3 h4 => cases hg; exact hx _ h1 ((extract_reports ascii).2 (.inl ⟨_, h2, h3, _, h4, rfl⟩))
      | other h1 h2 h3 => cases hg; exact hx _ h1 ((extract_reports ascii).2 (.inr (.inl ⟨h2, h3, rfl⟩)))
      | parameter h1 h2 h3 h4 h5 => cases hg; exact hx _ h1 ((extract_reports ascii).2 (.inr (.inr ⟨h2, _, _, h3, h4, h5, rfl⟩)))
      | destructured h1 =>
        cases hg
        obtain ⟨id, lhs, rhs, k, hin, hlen, ht, he⟩ := h1
        exact .destructured ((mem_inspectList _ _ _).2 hin) hlen ht he rfl
  rw [Plan.mem_reports, Plan.unions_leaves]
  constructor
  · rintro (h | ⟨p, hp, hl⟩)
    · cases h
    · obtain ⟨m, hm, rfl⟩ := List.mem_map.1 hp
      obtain ⟨h1, h2⟩ := (mem_collect named).1 hm
      unfold methodPlan at hl
      split at hl
      · rename_i r hr
        split at hl
        · rename_i v hv
          rw [methodAssignments_leaves hfd (by simp) _ (hok m)] at hl
          exact ⟨m, v, ⟨h1, h2, r, hr, hv⟩, (hleaf m v).1 hl⟩
        · simp [Plan.leaves] at hl
      · simp [Plan.leaves] at hl
  · rintro ⟨m, v, ⟨h1, h2, r, hr, hv⟩, h⟩
    refine .inr ⟨_, List.mem_map.2 ⟨m, (mem_collect named).2 ⟨h1, h2⟩, rfl⟩, ?_⟩
    simp only [methodPlan, hr, hv]
    rw [methodAssignments_leaves hfd (by simp) _ (hok m)]
    exact (hleaf m v).2 h

theorem assignment_codes {env : Env} (ascii : PrintsAscii env.isPrint) (parsed : ∀ m', Taint.BodyOk ((env.func m').body.getD []))
    {td : TypeDecls} {et : ErrorType} {fd : ErrorCodeField} (hfd : et.field = some fd) {err : GoType} {o : Object}
    (named : getNamedType err = some o) {c : GoString} :
    (Plan.unions ((collectMethodsForErrorType env td err).map (methodPlan env td et))).Yields (fun _ _ => False) c ↔
      ∃ m v e k, MethodWith env td err o m v ∧ Flow.FieldAssigned ((env.func m).body.getD []) v fd.name e ∧
        env.value e.id = some k ∧ ACode k c := by
  have hok : ∀ m' id lhs rhs, .assign id lhs rhs ∈ Node.inspectList Analyse.intoFields ((env.func m').body.getD []) →
      lhs.length ≠ rhs.length → rhs ≠ [] := by
    intro m' id lhs rhs hin hlen hnil
    subst hnil
    exact (parsed m').assigns id lhs [] (occurs_of_within ((mem_inspectList _ _ _).1 hin)) (fun h => hlen (by simp [h])) rfl
  have hext : ∀ m e, (extractErrorCodeFromStringExpression env m e).1 = some c ↔ ∃ k, env.value e.id = some k ∧ ACode k c := by
    intro m e
    unfold extractErrorCodeFromStringExpression
    cases hv : env.value e.id with
    | none =>
      simp only [reduceCtorEq, false_and, exists_false, iff_false]
      repeat' split
      all_goals simp
    | some k =>
      simp only [Option.some.injEq, exists_eq_left']
      cases hg : getErrorCodeFromConstant env.isPrint k with
      | none =>
        simp only [reduceCtorEq, false_iff]
        exact ((fromConstant_none ascii).1 hg).1 c
      | some c' =>
        simp only
        constructor
        · intro h
          split at h
          · rename_i hn; cases h; exact (fromConstant_some ascii hn).1 hg
          · cases h
        · intro h
          have := (fromConstant_some ascii (aCode_ne h)).2 h
          rw [hg] at this; cases this
          rw [if_pos (aCode_ne h)]
  constructor
  · intro h
    obtain ⟨l, hl, hlc⟩ := Plan.yields_leaf h
    rw [Plan.unions_leaves] at hl
    rcases hl with rfl | ⟨p, hp, hl⟩
    · simp [Plan.Yields] at hlc
    · obtain ⟨m, hm, rfl⟩ := List.mem_map.1 hp
      have hlne : l ≠ .codes [] := by rintro rfl; simp [Plan.Yields] at hlc
      obtain ⟨h1, h2⟩ := (mem_collect named).1 hm
      unfold methodPlan at hl
      split at hl
      · rename_i r hr
        split at hl
        · rename_i v hv
          rw [methodAssignments_leaves hfd hlne _ (hok m)] at hl
          rcases hl with ⟨hin, hlen, htgt, he, hl⟩ | ⟨hin, hlen, htgt, he, hl⟩
          · obtain ⟨k, hk, hc⟩ := (hext m _).1 (foundCode_yields hl hlc)
            exact ⟨m, v, _, k, ⟨h1, h2, r, hr, hv⟩, ⟨_, _, _, _, (mem_inspectList _ _ _).1 hin, hlen, htgt, he⟩, hk, hc⟩
          · subst hl; exact hlc.elim
        · simp only [Plan.leaves, List.mem_singleton] at hl; exact absurd hl hlne
      · simp only [Plan.leaves, List.mem_singleton] at hl; exact absurd hl hlne
  · rintro ⟨m, v, e, k, ⟨h1, h2, r, hr, hv⟩, ⟨id, lhs, rhs, j, hin, hlen, htgt, he⟩, hk, hc⟩
    refine Plan.leaf_yields (l := .codes [c]) (by simp [Plan.Yields]) ?_ ?_
    · refine Analyse.unions_noMinus _ fun p hp => ?_
      obtain ⟨m'', -, rfl⟩ := List.mem_map.1 hp
      unfold methodPlan
      repeat' split
      · exact methodAssignments_noMinus _
      · exact trivial
      · exact trivial
    · rw [Plan.unions_leaves]
      refine .inr ⟨_, List.mem_map.2 ⟨m, (mem_collect named).2 ⟨h1, h2⟩, rfl⟩, ?_⟩
      simp only [methodPlan, hr, hv]
      rw [methodAssignments_leaves hfd (by simp) _ (hok m)]
      refine .assigned ((mem_inspectList _ _ _).2 hin) hlen htgt he ?_
      simp [foundCode, Plan.leaves, (hext m e).2 ⟨k, hk, hc⟩]

/-! ## C52 -/

section
variable (env : Env) (td : TypeDecls) (spec : TypeSpec) (err : GoType) (o : Object) (m : FnId) (receiver : Option Ident)
  (taken : Option GoString)

/-- The `Code` method itself has the code `c`. -/
def OwnCode (c : GoString) : Prop :=
  ∃ n v, Looked env m ((env.func m).body.getD []) n ∧ env.value n.unparen.id = some v ∧ ACode v c

/-- The type has the code field `name`. -/
def CodeField (name : GoString) : Prop := taken = some name ∧ HasField spec name

/-- The type has neither a code of its own nor a code field. -/
def NoCodes : Prop := (∀ c, ¬ OwnCode env m c) ∧ ∀ name, ¬ CodeField spec taken name

/-- What is reported for the declaration of an error type with `Code` method `m`, where the field `taken` of the receiver is taken
for the code field. -/
inductive TypeProblem (pos : NodeId) : TagDiag → Prop where
  | method {x} : MethodProblem env m ((env.func m).body.getD []) receiver taken x → TypeProblem pos x
  | notField {name} : taken = some name → ¬ HasField spec name → TypeProblem pos ⟨pos, .notField name⟩
  | noCodes : NoCodes env spec m taken → TypeProblem pos ⟨spec.genDecl, .noCodes o⟩
  | assignment {name m' v x} : CodeField spec taken name → MethodWith env td err o m' v → AssignmentProblem env m' v name x →
      TypeProblem pos x

/-- The error type that is recorded. -/
structure Recorded (et : ErrorType) : Prop where
  codes : ∀ c, c ∈ et.codes ↔ OwnCode env m c ∨ ∃ name m' v e k, CodeField spec taken name ∧ MethodWith env td err o m' v ∧
    Flow.FieldAssigned ((env.func m').body.getD []) v name e ∧ env.value e.id = some k ∧ ACode k c
  field : ∀ name, (∃ p, et.field = some ⟨name, p⟩) ↔ CodeField spec taken name
  position : ∀ fd, et.field = some fd → ∃ gs, spec.fields = some gs ∧
    (gs.flatMap fun ns => if ns = [] then [none] else ns.map some)[fd.position]? = some (some fd.name)
end

/-- **C52.** The declaration of an error type whose method `Code` is `m`.  Where `taken` is the one of the fields of the receiver
selected by the method that is taken for the code field, the reports are exactly: the problems of the `Code` method; that `taken`
is no field of the type; that there is neither a code nor a field; and the problems of the assignments to the code field in
methods of the type.  What is recorded does not depend on whether something is reported: nothing iff there is neither a code nor a
field, and else exactly the codes among the constants of the method and those assigned to the field in methods. -/
theorem reports (env : Env) (d : Decls) (td : TypeDecls) (fuel : Nat) (spec : TypeSpec) (err : GoType) (o : Object)
    (fact : Option (Object × ErrorType)) (ds : List TagDiag) (m : FnId) (receiver : Option Ident)
    (tagged : tagErrorType env d td fuel spec err = .ok (fact, ds))
    (named : err = .named o ∨ err = .pointer (.named o)) (concrete : td.isInterface o = false)
    (method : TheCodeMethod env td err m receiver)
    (ascii : PrintsAscii env.isPrint)
    (parsed : ∀ m', Taint.BodyOk ((env.func m').body.getD []))
    (typed : Typed env m ((env.func m).body.getD [])) (scope : Scoped env m ((env.func m).body.getD [])) :
    ∃ taken, TakenField env m ((env.func m).body.getD []) receiver taken ∧
      (∀ x, x ∈ ds ↔ TypeProblem env td spec err o m receiver taken (d.pos m) x) ∧
      (fact = none ↔ NoCodes env spec m taken) ∧
      ∀ o' et, fact = some (o', et) → o' = o ∧ Recorded env td spec err o m taken et := by
  have hnamed : getNamedType err = some o := by rcases named with rfl | rfl <;> rfl
  unfold tagErrorType at tagged
  simp only [hnamed, concrete, Bool.false_eq_true, if_false, codeMethod_found method, bind, Except.bind] at tagged
  split at tagged
  · cases tagged
  rename_i r hr
  obtain ⟨res, ds₀⟩ := r
  unfold CodeMethod.analyse at hr
  simp only [bind, Except.bind] at hr
  split at hr
  · cases hr
  rename_i st hst
  have hfin := CodeMethod.finished typed scope hst
  simp only [pure, Except.pure, Except.ok.injEq, CodeMethod.outcome, Prod.mk.injEq] at hr
  obtain ⟨hres, hds⟩ := hr
  have htake := taken_field hfin
  refine ⟨st.field.map Ident.name, htake, ?_⟩
  have hOwn : ∀ c, c ∈ st.codes ↔ OwnCode env m c := method_codes ascii hfin
  -- the reports of the method itself
  have hds₀ : ∀ x, x ∈ ds₀ ↔ MethodProblem env m ((env.func m).body.getD []) receiver (st.field.map Ident.name) x ∨
      (∃ name, x = ⟨d.pos m, .notField name⟩ ∧ st.field.map Ident.name = some name ∧ ¬ HasField spec name) := by
    intro x
    rw [← hds, List.mem_append, method_problems ascii hfin]
    refine or_congr Iff.rfl ?_
    cases hf : st.field with
    | none => simp
    | some g =>
      simp only [Option.map_some, Option.some.injEq]
      by_cases hp : CodeMethod.getFieldPosition spec.fields g.name = none
      · simp only [hp, if_true, List.mem_singleton]
        exact ⟨fun h => ⟨_, h, rfl, getFieldPosition_none.1 hp⟩, fun ⟨_, h, hn, _⟩ => by rw [h, hn]⟩
      · have : HasField spec g.name := by
          apply Classical.byContradiction
          intro h; exact hp (getFieldPosition_none.2 h)
        simp only [hp, if_false, List.not_mem_nil, false_iff]
        rintro ⟨_, -, rfl, h⟩; exact h this
  -- the field
  have hField : ∀ name, CodeField spec (st.field.map Ident.name) name ↔ ∃ p, (st.field.bind fun i => (CodeMethod.getFieldPosition spec.fields i.name).map fun p =>
      (⟨i.name, p⟩ : ErrorCodeField)) = some ⟨name, p⟩ := by
    intro name
    show (st.field.map Ident.name = some name ∧ HasField spec name) ↔ _
    cases hf : st.field with
    | none => simp
    | some g =>
      simp only [Option.map_some, Option.some.injEq, Option.bind_some, Option.map_eq_some_iff, ErrorCodeField.mk.injEq]
      constructor
      · rintro ⟨rfl, h⟩
        cases hp : CodeMethod.getFieldPosition spec.fields g.name with
        | none => exact absurd h (getFieldPosition_none.1 hp)
        | some p => exact ⟨p, p, rfl, rfl, rfl⟩
      · rintro ⟨p, q, hp, rfl, -⟩
        refine ⟨rfl, ?_⟩
        apply Classical.byContradiction
        intro h; rw [getFieldPosition_none.2 h] at hp; cases hp
  have hempty : (st.codes.length = 0 ∧ (st.field.bind fun i => (CodeMethod.getFieldPosition spec.fields i.name).map fun p =>
      (⟨i.name, p⟩ : ErrorCodeField)) = none) ↔ NoCodes env spec m (st.field.map Ident.name) := by
    refine and_congr ⟨fun h c hc => ?_, fun h => ?_⟩ ⟨fun h name hn => ?_, fun h => ?_⟩
    · have := (hOwn c).2 hc
      rw [List.length_eq_zero_iff.1 h] at this; simp at this
    · cases hc : st.codes with
      | nil => rfl
      | cons c cs => exact absurd ((hOwn c).1 (by simp [hc])) (h c)
    · obtain ⟨p, hp⟩ := (hField name).1 hn
      rw [h] at hp; cases hp
    · cases hx : (st.field.bind fun i => (CodeMethod.getFieldPosition spec.fields i.name).map fun p =>
        (⟨i.name, p⟩ : ErrorCodeField)) with
      | none => rfl
      | some fd => exact absurd ((hField fd.name).2 ⟨fd.position, hx⟩) (h _)
  by_cases hE : NoCodes env spec m (st.field.map Ident.name)
  · rw [if_pos (hempty.2 hE)] at hres
    subst hres
    simp only [pure, Except.pure, Except.ok.injEq, Prod.mk.injEq] at tagged
    obtain ⟨rfl, rfl⟩ := tagged
    refine ⟨fun x => ?_, by simp [hE], nofun⟩
    rw [List.mem_append, hds₀, List.mem_singleton]
    constructor
    · rintro ((h | ⟨name, rfl, h1, h2⟩) | rfl)
      · exact .method h
      · exact .notField h1 h2
      · exact .noCodes hE
    · intro h
      cases h with
      | method h => exact .inl (.inl h)
      | notField h1 h2 => exact .inl (.inr ⟨_, rfl, h1, h2⟩)
      | noCodes h => exact .inr rfl
      | assignment h _ _ => exact absurd h (hE.2 _)
  · rw [if_neg (fun h => hE (hempty.1 h))] at hres
    subst hres
    simp only at tagged
    split at tagged
    · cases tagged
    rename_i r hmeth
    obtain ⟨et, es⟩ := r
    simp only [pure, Except.pure, Except.ok.injEq, Prod.mk.injEq] at tagged
    obtain ⟨rfl, rfl⟩ := tagged
    have hfield := (methods_mono hmeth).1
    have hes : (∀ x : Diag, x ∈ es ↔ ∃ name m' v, CodeField spec (st.field.map Ident.name) name ∧ MethodWith env td err o m' v ∧
          AssignmentProblem env m' v name ⟨x.at_, .assignment x.msg⟩) ∧
        ∀ c, c ∈ et.codes ↔ OwnCode env m c ∨ ∃ name m' v e k, CodeField spec (st.field.map Ident.name) name ∧ MethodWith env td err o m' v ∧
          Flow.FieldAssigned ((env.func m').body.getD []) v name e ∧ env.value e.id = some k ∧ ACode k c := by
      unfold analyseMethodsOfErrorType at hmeth
      split at hmeth
      · rename_i hnone
        cases hmeth
        have hno : ∀ name, ¬ CodeField spec (st.field.map Ident.name) name := fun name h => by
          obtain ⟨p, hp⟩ := (hField name).1 h
          exact nomatch hp.symm.trans hnone
        refine ⟨fun x => ⟨fun h => by simp at h, ?_⟩, fun c => ?_⟩
        · rintro ⟨name, m', v, h, -⟩; exact absurd h (hno name)
        · rw [hOwn]
          refine ⟨.inl, fun h => h.resolve_right ?_⟩
          rintro ⟨name, m', v, e, k, h, -⟩; exact absurd h (hno name)
      · rename_i hsome
        simp only [bind, Except.bind] at hmeth
        split at hmeth
        · cases hmeth
        rename_i r hplan
        obtain ⟨as, es'⟩ := r
        simp only [pure, Except.pure, Except.ok.injEq, Prod.mk.injEq] at hmeth
        obtain ⟨hmeth, rfl⟩ := hmeth
        obtain ⟨hyield, hrep, -⟩ := planResult_spec _ _ _ hplan
        obtain ⟨fd, hfd⟩ := Option.ne_none_iff_exists'.1 hsome
        have hF : ∀ name, CodeField spec (st.field.map Ident.name) name ↔ name = fd.name := by
          intro name
          rw [hField]
          constructor
          · rintro ⟨p, hp⟩
            have h2 : some (⟨name, p⟩ : ErrorCodeField) = some fd := hp.symm.trans hfd
            injection h2 with h2
            exact congrArg ErrorCodeField.name h2
          · rintro rfl; exact ⟨fd.position, hfd⟩
        refine ⟨fun x => ?_, fun c => ?_⟩
        · rw [hrep, assignment_reports ascii parsed hfd hnamed]
          constructor
          · rintro ⟨m', v, h1, h2⟩; exact ⟨fd.name, m', v, (hF _).2 rfl, h1, h2⟩
          · rintro ⟨name, m', v, hn, h1, h2⟩
            rw [hF] at hn; subst hn
            exact ⟨m', v, h1, h2⟩
        · have hin : c ∈ et.codes ↔ c ∈ st.codes ∨ c ∈ as := by
            rw [← hmeth]
            split
            · simp
            · rename_i h0
              have : as = [] := by cases as with | nil => rfl | cons => simp at h0
              simp [this]
          rw [hin, hOwn, hyield, assignment_codes ascii parsed hfd hnamed]
          refine or_congr Iff.rfl ⟨?_, ?_⟩
          · rintro ⟨m', v, e, k, h⟩; exact ⟨fd.name, m', v, e, k, (hF _).2 rfl, h⟩
          · rintro ⟨name, m', v, e, k, hn, h⟩
            rw [hF] at hn; subst hn
            exact ⟨m', v, e, k, h⟩
    refine ⟨fun x => ?_, by simp [hE], fun o' et' h => ?_⟩
    · rw [List.mem_append, hds₀, List.mem_map]
      constructor
      · rintro ((h | ⟨name, rfl, h1, h2⟩) | ⟨y, hy, rfl⟩)
        · exact .method h
        · exact .notField h1 h2
        · obtain ⟨name, m', v, h1, h2, h3⟩ := (hes.1 y).1 hy
          exact .assignment h1 h2 h3
      · intro h
        cases h with
        | method h => exact .inl (.inl h)
        | notField h1 h2 => exact .inl (.inr ⟨_, rfl, h1, h2⟩)
        | noCodes h => exact absurd h hE
        | @assignment name m' v x h1 h2 h3 =>
          have : ∃ y : Diag, x = ⟨y.at_, .assignment y.msg⟩ := by
            cases h3 <;> exact ⟨⟨_, _⟩, rfl⟩
          obtain ⟨y, rfl⟩ := this
          exact .inr ⟨y, (hes.1 y).2 ⟨name, m', v, h1, h2, h3⟩, rfl⟩
    · cases h
      refine ⟨rfl, hes.2, fun name => ?_, fun fd hfd => ?_⟩
      · rw [hfield]
        exact (hField name).symm
      · rw [hfield] at hfd
        simp only [Option.bind_eq_some_iff, Option.map_eq_some_iff] at hfd
        obtain ⟨g, -, p, hp, rfl⟩ := hfd
        unfold CodeMethod.getFieldPosition at hp
        split at hp
        · cases hp
        · rename_i gs hgs
          obtain ⟨k, rfl, hk⟩ := fieldPositionLoop_spec _ _ _ _ hp
          exact ⟨gs, hgs, by simpa using hk⟩

/-- **C52**, the other declarations: nothing is reported about an interface, and only the missing method about a type for which no
`Code` method is declared (it may have one from an embedded field); nothing is recorded then. -/
theorem other_types (env : Env) (d : Decls) (td : TypeDecls) (fuel : Nat) (spec : TypeSpec) (err : GoType) (o : Object)
    (named : err = .named o ∨ err = .pointer (.named o)) :
    (td.isInterface o = true → tagErrorType env d td fuel spec err = .ok (none, [])) ∧
    (td.isInterface o = false → (∀ m, ¬ ErrorTypes.CodeMethod env td err m) →
      tagErrorType env d td fuel spec err = .ok (none, [⟨spec.genDecl, .noCodeMethod⟩])) := by
  have hnamed : getNamedType err = some o := by rcases named with rfl | rfl <;> rfl
  unfold tagErrorType
  refine ⟨fun h => by simp [hnamed, h], fun h hno => ?_⟩
  have : getCodeFuncFromError env td err = none := by
    unfold getCodeFuncFromError
    cases hf : (env.methods b!"Code").find? (fun m => errorTypesSubset (td.recvType m) err) with
    | none => rfl
    | some m => exact absurd ⟨List.mem_of_find?_eq_some hf, subset_iff.1 (by simpa using List.find?_some hf)⟩ (hno m)
  simp [hnamed, h, this]

/-! ## Examples -/

/-- `func (e *Err) Code() string { if … { return other() }; if … { return e.Nope }; if … { return e.Msg }; return "no code!" }`. -/
def noisyBody : List Node :=
  [.other 20 [.ret 1 [.call 2 (.ident ⟨3, b!"other", none⟩) []]],
   .other 21 [.ret 4 [.selector 5 (.ident ⟨6, b!"e", some 1⟩) ⟨7, b!"Nope", none⟩]],
   .other 22 [.ret 8 [.selector 9 (.ident ⟨10, b!"e", some 1⟩) ⟨11, b!"Msg", none⟩]],
   .ret 12 [.basicLit 13]]
def noisyEnv : Env := codeEnv exObjects [(13, b!"no code!")] [] noisyBody

/-- Everything is reported, also what precedes the finding that there are no codes. -/
theorem noisy_tagged : tagErrorType noisyEnv codeDecls codeTypes (Analyse.bound noisyEnv) codeSpec (.pointer (.named 0)) =
    .ok (none, [⟨2, .notConstantOrField⟩, ⟨9, .secondField b!"Msg" b!"Nope"⟩, ⟨13, .badConstant .format⟩, ⟨0, .notField b!"Nope"⟩, ⟨300, .noCodes 0⟩]) := by rfl

theorem noisy_returns {rs : List Node} (h : CodeExec.Returns noisyBody rs) :
    rs = [.call 2 (.ident ⟨3, b!"other", none⟩) []] ∨ rs = [.selector 5 (.ident ⟨6, b!"e", some 1⟩) ⟨7, b!"Nope", none⟩] ∨
    rs = [.selector 9 (.ident ⟨10, b!"e", some 1⟩) ⟨11, b!"Msg", none⟩] ∨ rs = [.basicLit 13] := by
  obtain ⟨id, h⟩ := h
  have h := occurs_of_within h
  rw [Occurs, ← mem_inspectList] at h
  simp only [noisyBody, Node.inspectList, Node.inspect, Node.children, List.mem_cons, List.mem_append, List.not_mem_nil, or_false, reduceCtorEq, false_or,
    Node.ret.injEq, if_true] at h
  rcases h with h | h | h | h
  · exact .inl h.2
  · exact .inr (.inl h.2)
  · exact .inr (.inr (.inl h.2))
  · exact .inr (.inr (.inr h.2))

theorem noisy_strVar {v : ObjId} : ¬ StrVar noisyEnv 0 noisyBody v := by
  intro h
  induction h with
  | bare h _ _ => rcases noisy_returns h with h | h | h | h <;> cases h
  | ret h hv =>
    obtain ⟨-, i, hi, ho⟩ := hv
    rcases noisy_returns h with h | h | h | h <;> cases h <;> simp [Node.unparen] at hi
  | source _ _ _ ih => exact ih

theorem noisy_strIdent {i : Ident} : ¬ StrIdent noisyEnv 0 noisyBody i := by
  rintro (⟨e, he | ⟨v, hv, -⟩, -, hi⟩ | ⟨h, -⟩)
  · rcases noisy_returns he with h | h | h | h <;> cases h <;> simp [Node.unparen] at hi
  · exact noisy_strVar hv
  · rcases noisy_returns h with h | h | h | h <;> cases h

theorem noisy_noLit (p : ObjId) : ¬ Flow.LitParam noisyBody p := by
  rintro ⟨id, fn, type, b, ho, -⟩
  rw [Occurs, ← mem_inspectList] at ho
  simp [noisyBody, Node.inspectList, Node.inspect, Node.children] at ho

/-- All hypotheses of `reports` hold for this type. -/
example : ∃ taken, TakenField noisyEnv 0 noisyBody (some ⟨200, b!"e", some 1⟩) taken ∧
    (∀ x, x ∈ [⟨2, .notConstantOrField⟩, ⟨9, .secondField b!"Msg" b!"Nope"⟩, ⟨13, .badConstant .format⟩, ⟨0, .notField b!"Nope"⟩, ⟨300, .noCodes 0⟩] ↔
      TypeProblem noisyEnv codeTypes codeSpec (.pointer (.named 0)) 0 0 (some ⟨200, b!"e", some 1⟩) taken 0 x) ∧
    NoCodes noisyEnv codeSpec 0 taken := by
  obtain ⟨taken, h1, h2, h3, -⟩ := reports noisyEnv codeDecls codeTypes (Analyse.bound noisyEnv) codeSpec (.pointer (.named 0)) 0 none _ 0
    (some ⟨200, b!"e", some 1⟩) noisy_tagged (.inr rfl) rfl
    ⟨⟨by decide, .inl rfl⟩, fun m' h => by
      have := h.1
      rw [show noisyEnv.methods b!"Code" = [0] from rfl] at this
      simpa using this, fun r => ⟨fun h => by cases h; rfl, fun h => by cases h; rfl⟩⟩
    (fun _ _ => rfl)
    (fun m => by
      match m with
      | 0 =>
        show Taint.BodyOk noisyBody
        refine ⟨fun id fn type b ho => ?_, fun id lhs rhs ho _ => ?_⟩
        · rw [Occurs, ← mem_inspectList] at ho
          simp [noisyBody, Node.inspectList, Node.inspect, Node.children] at ho
        · rw [Occurs, ← mem_inspectList] at ho
          simp [noisyBody, Node.inspectList, Node.inspect, Node.children] at ho
      | m + 1 =>
        have : (noisyEnv.func (m + 1)).body.getD [] = [] := by simp [Env.func, noisyEnv, codeEnv]
        rw [this]
        exact ⟨fun _ _ _ _ ⟨_, h, _⟩ => by simp at h, fun _ _ _ ⟨_, h, _⟩ => by simp at h⟩)
    (show Typed noisyEnv 0 noisyBody from
      ⟨fun e i v he hi _ _ => by
        rcases he with he | ⟨v, hv, -⟩
        · rcases noisy_returns he with h | h | h | h <;> cases h <;> simp [Node.unparen] at hi
        · exact absurd hv noisy_strVar, fun i v hi => absurd hi noisy_strIdent⟩)
    (show Scoped noisyEnv 0 noisyBody from
      ⟨(Tracking.scope_of_noLits noisyEnv noisyBody noisy_noLit).1, fun i _ => (Tracking.scope_of_noLits noisyEnv noisyBody noisy_noLit).2 i⟩)
  exact ⟨taken, h1, h2, h3.1 rfl⟩

end Serum.Props.TypeReports
