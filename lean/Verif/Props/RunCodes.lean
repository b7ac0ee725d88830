import Verif.Props.RunExports
import Verif.Props.RunExample
import Verif.Props.ErrorDocs

/-!
# C39 for whole runs: every code recorded, exported or listed in a diagnostic is well-formed
-/

namespace Serum.Props.Run
open Serum RunSpec CodeFormat CodeExec

variable {P : Package} {S : Schedule} {strict : Bool} {out : Outcome}

/-- All codes in the facts are well-formed. -/
structure AllWellFormed (facts : Facts) : Prop where
  codes : ∀ o C, facts.codes o = some C → ∀ c ∈ C, WellFormed c
  types : ∀ o t, facts.errorType o = some t → ∀ c ∈ t.codes, WellFormed c
  interfaces : ∀ o ms, facts.interface o = some ms → ∀ m C, (m, C) ∈ ms → ∀ c ∈ C, WellFormed c

/-! ## Error types -/

section Tag
variable {env : Env} {f : FnId} {body : List Node} {receiver : Option Ident} {fuel : Nat}

def TagWf (st : TagState) : Prop := ∀ c ∈ st.codes, WellFormed c

theorem returnedExpression_wf (hp : PrintsAscii env.isPrint) {taint : Ident → TagState → Except Stop TagState}
    (ht : ∀ i st st', TagWf st → taint i st = .ok st' → TagWf st') {e : Node} {st st' : TagState} (hw : TagWf st)
    (h : CodeMethod.returnedExpression env receiver taint e st = .ok st') : TagWf st' := by
  unfold CodeMethod.returnedExpression at h
  split at h
  · rename_i v hv
    split at h
    · rename_i c hc
      cases h
      split
      · rename_i hne
        intro c' hc'
        simp only [CodeMethod.mem_add] at hc'
        rcases hc' with hc' | rfl
        · exact hw c' hc'
        · cases v with
          | other => simp [(Extract.constant_code_partial env.isPrint hp []).2.2.2] at hc
          | str s =>
            obtain ⟨h1, h2, h3, -⟩ := Extract.constant_code_partial env.isPrint hp s
            by_cases hs : WellFormed s ∧ s.length ≤ 70
            · rw [h1 hs] at hc; cases hc; exact hs.1
            · by_cases hn : s = []
              · subst hn; rw [h2] at hc; cases hc; exact absurd rfl hne
              · rw [h3 hs hn] at hc; cases hc
      · exact hw
    · cases h; exact hw
  · split at h
    · split at h
      · cases h; exact hw
      · cases h
        split <;> exact hw
    · split at h
      · exact ht _ _ _ hw h
      · cases h; exact hw

theorem returnedExpressions_wf {expr : Node → TagState → Except Stop TagState}
    (he : ∀ e st st', TagWf st → expr e st = .ok st' → TagWf st') : ∀ (es : List Node) (st st' : TagState), TagWf st →
    CodeMethod.returnedExpressions expr es st = .ok st' → TagWf st' := by
  intro es
  induction es with
  | nil => intro st st' hw h; cases h; exact hw
  | cons e es ih =>
    intro st st' hw h
    simp only [CodeMethod.returnedExpressions, bind, Except.bind] at h
    split at h
    · cases h
    · rename_i st₁ h₁; exact ih _ _ (he _ _ _ hw h₁) h

theorem identTaint_wf (hp : PrintsAscii env.isPrint) : ∀ (depth : Nat) (i : Ident) (st st' : TagState), TagWf st →
    CodeMethod.identTaint env f body receiver fuel depth i st = .ok st' → TagWf st' := by
  intro depth
  induction depth with
  | zero => intro i st st' _ h; simp [CodeMethod.identTaint] at h
  | succ depth ih =>
    intro i st st' hw h
    simp only [CodeMethod.identTaint, bind, Except.bind] at h
    split at h
    · cases h
    · exact returnedExpressions_wf (expr := CodeMethod.returnedExpression env receiver (CodeMethod.identTaint env f body receiver fuel depth))
        (fun e st st' hw h => returnedExpression_wf hp (fun i st st' hw h => ih i st st' hw h) hw h) _ _ _
        (by intro c hc; exact hw c hc) h

theorem returnStmts_wf (hp : PrintsAscii env.isPrint) : ∀ (ns : List Node) (st st' : TagState), TagWf st →
    CodeMethod.returnStmts env f body receiver fuel ns st = .ok st' → TagWf st' := by
  intro ns
  induction ns with
  | nil => intro st st' hw h; cases h; exact hw
  | cons n ns ih =>
    intro st st' hw h
    cases n with
    | ret id results =>
      simp only [CodeMethod.returnStmts, bind, Except.bind] at h
      split at h
      · cases h
      · rename_i st₁ h₁
        refine ih _ _ ?_ h
        unfold CodeMethod.returnStmt at h₁
        split at h₁
        · simp only [bind, Except.bind] at h₁
          split at h₁
          · cases h₁
          · exact identTaint_wf hp _ _ _ _ hw h₁
        · exact returnedExpression_wf hp (identTaint_wf hp _) hw h₁
        · cases h₁
    | _ => exact ih _ _ hw (by simpa only [CodeMethod.returnStmts] using h)

theorem analyse_wf (hp : PrintsAscii env.isPrint) {fields : Option (List (List GoString))} {pos : NodeId} {et : ErrorType} {ds : List TagDiag}
    (h : CodeMethod.analyse env fields f pos receiver fuel = .ok (some et, ds)) : ∀ c ∈ et.codes, WellFormed c := by
  simp only [CodeMethod.analyse, bind, Except.bind] at h
  split at h
  · cases h
  · rename_i st hst
    simp only [pure, Except.pure, CodeMethod.outcome, Except.ok.injEq, Prod.mk.injEq] at h
    obtain ⟨h, -⟩ := h
    split at h
    · cases h
    · cases h
      exact returnStmts_wf hp _ _ _ (fun c hc => by cases hc) hst

theorem planResult_wf : ∀ (p : BodyPlan), Search.CodesAll WellFormed p → ∀ s ds, planResult p = .ok (s, ds) → ∀ c ∈ s, WellFormed c := by
  intro p
  induction p with
  | codes s => intro hp s' ds h; cases h; exact hp _ (by simp [Plan.leaves])
  | report d => intro hp s' ds h; cases h; simp
  | panic l => intro hp s' ds h; simp [planResult] at h
  | call g => intro hp s' ds h; simp [planResult] at h
  | visit g => intro hp s' ds h; simp [planResult] at h
  | union a b iha ihb =>
    intro hp s' ds h
    simp only [planResult, bind, Except.bind] at h
    split at h
    · cases h
    · rename_i r hr
      split at h
      · cases h
      · rename_i r' hr'
        cases h
        intro c hc
        rw [CodeSet.mem_union] at hc
        rcases hc with hc | hc
        · exact iha (fun s hs => hp s (by simp [Plan.leaves, hs])) _ _ hr c hc
        · exact ihb (fun s hs => hp s (by simp [Plan.leaves, hs])) _ _ hr' c hc
  | minus a t ih =>
    intro hp s' ds h
    simp only [planResult, bind, Except.bind] at h
    split at h
    · cases h
    · rename_i r hr
      cases h
      intro c hc
      rw [CodeSet.mem_diff] at hc
      exact ih hp _ _ hr c hc.1

theorem methodPlan_wf (hp : PrintsAscii env.isPrint) (hf : Bodies.WellFormedFacts env.facts) {td : TypeDecls} {et : ErrorType} {m : FnId} :
    Search.CodesAll WellFormed (methodPlan env td et m) := by
  have key := Bodies.steps_wellFormed env hp hf m
  have e : Analyse.AllSteps (fun l => ∀ s, l = .codes s → ∀ c ∈ s, WellFormed c) (methodPlan env td et m) := by
    have em : Analyse.AllSteps (fun l => ∀ s, l = .codes s → ∀ c ∈ s, WellFormed c) (.codes []) := .one key.empty rfl
    unfold methodPlan
    split
    · split
      · generalize Node.inspectList Analyse.intoFields ((env.func m).body.getD []) = ns
        induction ns with
        | nil => exact em
        | cons n ns ih =>
          cases n with
          | assign id lhs rhs => exact .union (key.fieldAssignment _ _ _ _ _ _) ih
          | _ => exact ih
      · exact em
    · exact em
  intro s hs
  exact e _ hs s rfl

theorem tagErrorType_wf (hp : PrintsAscii env.isPrint) (hf : Bodies.WellFormedFacts env.facts) {d : Decls} {td : TypeDecls} {spec : TypeSpec} {err : GoType}
    {o : Object} {et : ErrorType} {ds : List TagDiag} (h : tagErrorType env d td fuel spec err = .ok (some (o, et), ds)) :
    ∀ c ∈ et.codes, WellFormed c := by
  unfold tagErrorType at h
  split at h
  · cases h
  · split at h
    · cases h
    · split at h
      · cases h
      · simp only [bind, Except.bind] at h
        split at h
        · cases h
        · rename_i r hr
          obtain ⟨result, ds₁⟩ := r
          dsimp only at h
          split at h
          · cases h
          · rename_i et₁
            split at h
            · cases h
            · rename_i r₂ hr₂
              obtain ⟨et₂, es⟩ := r₂
              cases h
              have h0 := analyse_wf hp hr
              unfold analyseMethodsOfErrorType at hr₂
              split at hr₂
              · cases hr₂; exact h0
              · simp only [bind, Except.bind] at hr₂
                split at hr₂
                · cases hr₂
                · rename_i r₃ hr₃
                  obtain ⟨assigned, ds₃⟩ := r₃
                  simp only [pure, Except.pure, Except.ok.injEq, Prod.mk.injEq] at hr₂
                  obtain ⟨rfl, -⟩ := hr₂
                  split
                  · intro c hc
                    rw [CodeSet.mem_union, CodeSet.mem_ofSlice] at hc
                    rcases hc with hc | hc
                    · exact h0 c hc
                    · refine planResult_wf _ ?_ _ _ hr₃ c hc
                      intro s hs
                      rw [Plan.unions_leaves] at hs
                      rcases hs with hs | ⟨p, hp', hs⟩
                      · cases hs; simp
                      · obtain ⟨m, -, rfl⟩ := List.mem_map.1 hp'
                        exact methodPlan_wf hp hf s hs
                  · exact h0

theorem findAndTag_wf (hp : PrintsAscii env.isPrint) (hf : Bodies.WellFormedFacts env.facts) {d : Decls} {td : TypeDecls} :
    ∀ (specs : List TypeSpec) (facts : Facts) (r : Facts × List TagDiag), (∀ o t, facts.errorType o = some t → ∀ c ∈ t.codes, WellFormed c) →
      findAndTagErrorTypes env d td fuel specs facts = .ok r → ∀ o t, r.1.errorType o = some t → ∀ c ∈ t.codes, WellFormed c := by
  intro specs
  induction specs with
  | nil => intro facts r hw h; cases h; exact hw
  | cons spec specs ih =>
    intro facts r hw h
    unfold findAndTagErrorTypes at h
    split at h
    · exact ih _ _ hw h
    · simp only [bind, Except.bind] at h
      split at h
      · cases h
      · rename_i r₁ hr₁
        obtain ⟨fact, ds⟩ := r₁
        dsimp only at h
        split at h
        · cases h
        · rename_i r₂ hr₂
          cases h
          refine ih _ r₂ ?_ hr₂
          cases fact with
          | none => exact hw
          | some x =>
            intro o t ht
            dsimp only at ht
            split at ht
            · cases ht; exact tagErrorType_wf hp hf hr₁
            · exact hw o t ht

end Tag

/-! ## Conversions -/

theorem runSteps_wf {env : Env} {o : Conv.Orders} (hfo : o.Fair) {plan : FnId → BodyPlan} {fuel : Nat} (hpl : ∀ f, Search.CodesAll WellFormed (plan f))
    (hc : ∀ o C, env.facts.codes o = some C → ∀ c ∈ C, WellFormed c) :
    ∀ (ss : List Conv.Step) (st : Search FnId Diag) (rs : List Conv.Report) (st' : Search FnId Diag), Search.FoundAll WellFormed st →
      Conv.runSteps env o plan fuel ss st = .ok (rs, st') → (∀ r ∈ rs, ∀ c ∈ r.codes, WellFormed c) ∧ Search.FoundAll WellFormed st' := by
  have methods : ∀ (c : Conv.Check) (ms : List (GoString × CodeSet)) (st : Search FnId Diag) (rs : List Conv.Report) (st' : Search FnId Diag),
      Search.FoundAll WellFormed st → Conv.checkMethods env o plan fuel c ms st = .ok (rs, st') →
      (∀ r ∈ rs, ∀ c ∈ r.codes, WellFormed c) ∧ Search.FoundAll WellFormed st' := by
    intro ck ms
    induction ms with
    | nil => intro st rs st' hw h; cases h; exact ⟨by simp, hw⟩
    | cons x ms ih =>
      intro st rs st' hw h
      obtain ⟨m, allowed⟩ := x
      simp only [Conv.checkMethods, bind, Except.bind] at h
      split at h
      · cases h
      · rename_i r hr
        obtain ⟨found, st₁⟩ := r
        dsimp only at h
        split at h
        · cases h
        · rename_i r₂ hr₂
          cases h
          have hfound : (∀ c ∈ found, WellFormed c) ∧ Search.FoundAll WellFormed st₁ := by
            unfold Conv.methodCodes at hr
            split at hr
            · cases hr
            · split at hr
              · rename_i C hC; cases hr; exact ⟨hc _ _ hC, hw⟩
              · split at hr
                · cases hr; exact ⟨by simp, hw⟩
                · unfold Search.findCached at hr
                  split at hr
                  · rename_i s hs; cases hr; exact ⟨hw _ _ hs, hw⟩
                  · exact Search.findInFunc_all hpl _ _ _ hw _ _ hr
          obtain ⟨h1, h2⟩ := ih _ _ _ hfound.2 hr₂
          refine ⟨fun r hr c hcr => ?_, h2⟩
          rcases List.mem_append.1 hr with hr | hr
          · unfold unexpectedCodes at hr
            dsimp only at hr
            split at hr
            · simp at hr
            · rename_i codes hcodes
              split at hcodes
              · cases hcodes
                simp only [List.mem_singleton] at hr
                subst hr
                dsimp only at hcr
                rw [((Reports.sortStrings_perm _).trans (hfo.slice _)).mem_iff, CodeSet.mem_diff, (hfo.diff _).mem_iff] at hcr
                exact hfound.1 c hcr.1
              · cases hcodes
          · exact h1 r hr c hcr
  intro ss
  induction ss with
  | nil => intro st rs st' hw h; cases h; exact ⟨by simp, hw⟩
  | cons s ss ih =>
    intro st rs st' hw h
    cases s with
    | panic l => simp [Conv.runSteps] at h
    | check ck =>
      simp only [Conv.runSteps, bind, Except.bind] at h
      split at h
      · cases h
      · rename_i r hr
        obtain ⟨rs₁, st₁⟩ := r
        dsimp only at h
        split at h
        · cases h
        · rename_i r₂ hr₂
          cases h
          have h0 : (∀ r ∈ rs₁, ∀ c ∈ r.codes, WellFormed c) ∧ Search.FoundAll WellFormed st₁ := by
            unfold Conv.runCheck at hr
            split at hr
            · cases hr; exact ⟨by simp, hw⟩
            · split at hr
              · cases hr; exact ⟨by simp, hw⟩
              · exact methods _ _ _ _ _ hw hr
          obtain ⟨h1, h2⟩ := ih _ _ _ h0.2 hr₂
          exact ⟨fun r hr => (List.mem_append.1 hr).elim (h0.1 r) (h1 r), h2⟩

/-! ## The whole run -/

theorem compared_wf {f : FnId} {c : FuncCodes} (h : Compared P f c) : ∀ x ∈ c.codes, WellFormed x := by
  obtain ⟨-, -, r, hr, hc, -⟩ := h
  rw [hc]
  exact ErrorDocs.declared_codes_wellFormed _ _ hr

theorem own_wf {d : IfaceDecl} {m : GoString} {C : CodeSet} (h : IfaceSpec.Own P.env d m C) : ∀ c ∈ C, WellFormed c := by
  obtain ⟨im, r, _, _, -, -, -, -, -, hr, -, -, rfl⟩ := h
  exact ErrorDocs.declared_codes_wellFormed _ _ hr

theorem has_wf (hw : AllWellFormed P.env.facts) {d : IfaceDecl} {m : GoString} {C : CodeSet} (h : IfaceSpec.Has P.env P.ifaces d m C) :
    ∀ c ∈ C, WellFormed c := by
  induction h with
  | own h => exact own_wf h
  | embeds _ _ _ ih => exact ih
  | imports _ hr hm => obtain ⟨o, -, ho⟩ := hr; exact hw.interfaces _ _ ho _ _ hm

theorem takes_wf (hw : AllWellFormed P.env.facts) {d : IfaceDecl} {es : List Embedded} {m : GoString} {C : CodeSet}
    (h : IfaceSpec.TakesFrom P.env P.ifaces d es m C) : ∀ c ∈ C, WellFormed c := by
  induction h with
  | own h => exact own_wf h
  | embeds _ _ _ _ _ ih => exact ih
  | imports _ _ _ hr hm => obtain ⟨o, -, ho⟩ := hr; exact hw.interfaces _ _ ho _ _ hm

/-- **C39**, for a run: if all imported facts have well-formed codes only, so do all facts after the run — those of functions, error
types and interfaces … -/
theorem exported_wellFormed (h : runVerify P S strict = .ok out) (hS : S.Fair) (ho : Objects P) (hp : Interfaces.Program P.ifaces)
    (ha : PrintsAscii P.env.isPrint) (hw : AllWellFormed P.env.facts) : AllWellFormed out.facts := by
  obtain ⟨h1, h2, h3⟩ := exported_codes h hS ho hp
  obtain ⟨h4, h5⟩ := exported_interfaces_partial h hS ho hp
  obtain ⟨s, hr⟩ := ran_iff.1 h
  refine ⟨fun o C hC => ?_, fun o t ht => ?_, fun o ms hms => ?_⟩
  · by_cases hf : ∃ f ∈ P.funcs, P.env.funcObj f = o
    · obtain ⟨f, hf, rfl⟩ := hf
      obtain ⟨c, hc, rfl⟩ := (h1 f hf C).1 hC
      exact compared_wf hc
    · by_cases hd : ∃ d ∈ P.ifaces, ∃ im, .method im ∈ d.elements ∧ P.methodObj im.ident.id = o
      · obtain ⟨d, hd, im, him, rfl⟩ := hd
        obtain ⟨r, _, _, -, -, hr, -, -, rfl⟩ := (h2 d hd im him C).1 hC
        exact ErrorDocs.declared_codes_wellFormed _ _ hr
      · rw [h3 o (fun f hf' e => hf ⟨f, hf', e⟩) (fun d hd' im him e => hd ⟨d, hd', im, him, e⟩)] at hC
        exact hw.codes o C hC
  · rw [(hr.out_rest hS ho).2.1] at ht
    exact findAndTag_wf (env := P.start) ha ⟨hw.codes, hw.types⟩ _ _ _ hw.types hr.tag o t ht
  · by_cases hd : ∃ d ∈ P.ifaces, d.obj = o
    · obtain ⟨d, hd, rfl⟩ := hd
      intro m C hm
      exact has_wf hw (((h4 d hd).2 ms hms).2.2.1 m C hm)
    · rw [h5 o (fun d hd' e => hd ⟨d, hd', e⟩)] at hms
      exact hw.interfaces o ms hms

/-- … and so do the codes listed in the reports about declarations, about embedded interfaces and about conversions. -/
theorem reported_wellFormed (h : runVerify P S strict = .ok out) (hS : S.Fair) (ho : Objects P) (hp : Interfaces.Program P.ifaces)
    (ha : PrintsAscii P.env.isPrint) (hw : AllWellFormed P.env.facts) :
    (∀ f text, (f, text) ∈ out.mismatches → ∃ missing unused, text = Reports.mismatchText missing unused ∧
      ∀ c, c ∈ missing ∨ c ∈ unused → WellFormed c) ∧
    (∀ x ∈ out.ifaces, ∀ m text, x.msg = .incompatible m text → ∃ missing unused, text = Reports.mismatchText missing unused ∧
      ∀ c, c ∈ missing ∨ c ∈ unused → WellFormed c) ∧
    ∀ r ∈ out.conversions, ∀ c ∈ r.codes, WellFormed c := by
  have hout := exported_wellFormed h hS ho hp ha hw
  have hi := interface_reports_exact_partial h hS ho hp
  obtain ⟨s, hr⟩ := ran_iff.1 h
  have hfacts : AllWellFormed s.facts := by
    rw [facts_during hr hS ho hp]
    refine ⟨fun o C hC => ?_, hout.types, hout.interfaces⟩
    unfold during at hC
    dsimp only at hC
    split at hC
    · cases hC
    · exact hout.codes o C hC
  obtain ⟨hfound, hst⟩ := Bodies.found_wellFormed (P.at_ s.facts) ha ⟨hfacts.codes, hfacts.types⟩ P.depth _ _ _ _ hr.search
  refine ⟨fun f text hm => ?_, fun x hx m text hm => ?_, ?_⟩
  · rw [hr.mismatches] at hm
    unfold Serum.mismatches at hm
    obtain ⟨⟨claim, result⟩, hz, hm⟩ := List.mem_filterMap.1 hm
    obtain ⟨text', ht, heq⟩ := Option.map_eq_some_iff.1 hm
    cases heq
    obtain ⟨hcl, hre⟩ := List.of_mem_zip hz
    have hcomp : Compared P claim.1 claim.2 :=
      (hr.claims_iff hS ho.funcs).1 ((hS.claims _).mem_iff.1 hcl)
    obtain ⟨-, missing, unused, hmi, hun, htext⟩ := Reports.mismatch_exact _ (hS.claimMatch claim.1) result.2 claim.2.codes
    refine ⟨missing, unused, ?_, ?_⟩
    · unfold reportIfCodesDoNotMatch at ht
      generalize checkIfErrorCodesMatch (S.claimMatch claim.1) result.2 claim.2.codes = r at ht htext
      obtain ⟨b, t⟩ := r
      cases b <;> cases ht
      exact htext
    · rintro c (hc | hc)
      · exact hfound result.1 result.2 hre c ((hmi.2.2 c).1 hc).1
      · exact compared_wf hcomp c ((hun.2.2 c).1 hc).1
  · obtain ⟨d, hd, ⟨pre, e, post, -, m', C, T, missing, unused, h1, h2, -, h3, h4, rfl⟩ | ⟨im, him, hu⟩⟩ := (hi x).1 hx
    · cases hm
      refine ⟨missing, unused, rfl, ?_⟩
      rintro c (hc | hc)
      · exact takes_wf hw h1 c ((h3.2.2 c).1 hc).1
      · have hcT := ((h4.2.2 c).1 hc).1
        cases e with
        | name id n => obtain ⟨d', -, -, ht⟩ := h2; exact takes_wf hw ht c hcT
        | qualified id => obtain ⟨ms, ⟨o, -, hms⟩, hm⟩ := h2; exact hw.interfaces o ms hms _ _ hm c hcT
    · exfalso
      rcases hu with ⟨-, _, _, -, -, -, rfl⟩ | ⟨-, ⟨_, -, rfl⟩ | ⟨_, -, ⟨-, rfl⟩ | ⟨-, -, -, -, rfl⟩⟩⟩ <;> cases hm
  · exact (runSteps_wf hS.conv (fun f => Bodies.plan_wellFormed (P.at_ out.facts) ha ⟨hout.codes, hout.types⟩ P.depth f) hout.codes _ _ _ _ hst hr.conv).1

/-- The hypotheses are met by the example package, whose exported facts have codes of functions, of an error type and of an
interface. -/
example : AllWellFormed pkgOut.facts ∧ pkgOut.facts.codes 70 ≠ none ∧ pkgOut.facts.errorType 7 ≠ none ∧ pkgOut.facts.interface 20 ≠ none := by
  refine ⟨exported_wellFormed pkg_ran schedule_fair pkg_objects pkg_program ?_ ⟨nofun, nofun, nofun⟩, nofun, nofun, nofun⟩
  intro c hc
  rfl

end Serum.Props.Run
