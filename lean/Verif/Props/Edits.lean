import Verif.Edits
import Verif.Props.RunOrder
import Verif.Props.Corrections

/-!
# C48 — edits are local

What is reported about a function, and in its body, depends only on declarations and on the bodies of the functions it calls, directly
or indirectly.
-/

namespace Serum

/-- The package with other definitions of its functions. -/
def Package.edited (P : Package) (fs : List FuncDef) : Package := { P with env := P.env.withFuncs fs }

namespace Props.Edits
open RunSpec
variable {N D : Type}

/-- The region reachable from `f` is the same. -/
theorem reach_local {plan plan' : N → Plan N D} {f : N} (h : ∀ g, Reach (Calls plan) f g → plan' g = plan g) {g : N} :
    Reach (Calls plan) f g ↔ Reach (Calls plan') f g := by
  constructor
  · intro hr
    induction hr with
    | refl a => exact .refl a
    | step hc hr ih =>
      refine .step ?_ (ih fun x hx => h x (.step hc hx))
      unfold Calls at hc ⊢
      rw [h _ (.refl _)]; exact hc
  · intro hr
    induction hr with
    | refl a => exact .refl a
    | @step a b c hc hr ih =>
      have hc' : Calls plan a b := by unfold Calls at hc ⊢; rw [← h a (.refl _)]; exact hc
      exact .step hc' (ih fun x hx => h x (.step hc' hx))

theorem yields_local {p : Plan N D} {ρ ρ' : N → GoString → Prop} {c : GoString} (h : ∀ g ∈ p.targets, ρ g c → ρ' g c) (hy : p.Yields ρ c) :
    p.Yields ρ' c := by
  induction p with
  | codes s => exact hy
  | report _ => exact hy
  | panic _ => exact hy
  | call g => exact h g (by simp [Plan.targets]) hy
  | visit g => exact h g (by simp [Plan.targets]) hy
  | union a b iha ihb =>
    rcases hy with hy | hy
    · exact .inl (iha (fun g hg => h g (by simp [Plan.targets, hg])) hy)
    · exact .inr (ihb (fun g hg => h g (by simp [Plan.targets, hg])) hy)
  | minus a s ih => exact ⟨ih (fun g hg => h g (by simpa [Plan.targets] using hg)) hy.1, hy.2⟩

private theorem codes_half {plan plan' : N → Plan N D} {f : N} (h : ∀ g, Reach (Calls plan) f g → plan' g = plan g) {c : GoString}
    (hc : CodesOf plan f c) : CodesOf plan' f c := by
  intro ρ hρ
  have := hc (fun g c => Reach (Calls plan) f g → ρ g c) ⟨fun g c hy hr => ?_, fun g x c hm hx hr => ?_⟩
  · exact this (.refl f)
  · refine hρ.1 g c ?_
    rw [h g hr]
    exact yields_local (fun z hz hk => hk (hr.trans (.step hz (.refl z)))) hy
  · have hrx : Reach (Calls plan) f x := hr.trans hm.1
    refine hρ.2 g x c ⟨(reach_local fun z hz => h z (hr.trans hz)).1 hm.1, (reach_local fun z hz => h z (hrx.trans hz)).1 hm.2⟩ (hx hrx)

/-- The codes of a function depend only on the functions reachable from it. -/
theorem codes_local {plan plan' : N → Plan N D} {f : N} (h : ∀ g, Reach (Calls plan) f g → plan' g = plan g) (c : GoString) :
    CodesOf plan f c ↔ CodesOf plan' f c :=
  ⟨codes_half h, codes_half fun g hg => (h g ((reach_local h).2 hg)).symm⟩

theorem settled_local [DecidableEq N] {plan plan' : N → Plan N D} {f : N} (h : ∀ g, Reach (Calls plan) f g → plan' g = plan g)
    (hs : CallGraph.Settled plan f) : CallGraph.Settled plan' f := by
  intro g hg z hz hr
  have hg' := (reach_local h).2 hg
  rw [h g hg'] at hz
  have hz' : Reach (Calls plan) f z := hg'.trans (.step (Search.visits_targets _ hz) (.refl z))
  exact hs g hg' z hz ((reach_local fun x hx => h x (hz'.trans hx)).2 hr)

/-! ## Runs -/

variable {P : Package} {S S' : Schedule} {strict strict' : Bool} {out out' : Outcome} {fs : List FuncDef}

/-- Bodies have been changed: signatures are kept, and the error types found are the same (that is so unless methods of error types are
changed). -/
structure OnlyBodies (P : Package) (fs : List FuncDef) (out out' : Outcome) : Prop where
  signatures : ∀ f, ((P.edited fs).env.func f).type = (P.env.func f).type
  types : out'.facts.errorType = out.facts.errorType

theorem compared_edited (h : ∀ f, ((P.edited fs).env.func f).type = (P.env.func f).type) {f : FnId} {c : FuncCodes} :
    Compared (P.edited fs) f c ↔ Compared P f c := by
  unfold Compared ReturnsError RunSpec.Declares
  rw [h f]; rfl

theorem objects_edited (h : Objects P) : Objects (P.edited fs) :=
  ⟨h.funcs, h.distinct, h.methods, h.apart, h.imported, h.importedMethods, h.interfaces, h.importedInterfaces, h.importedTables⟩

theorem during_edited (h : runVerify P S strict = .ok out) (h' : runVerify (P.edited fs) S' strict' = .ok out') (hS : S.Fair)
    (hS' : S'.Fair) (ho : Objects P) (hp : Interfaces.Program P.ifaces) (he : OnlyBodies P fs out out') :
    (P.edited fs).plan (during (P.edited fs) out'.facts) = (P.edited fs).plan (during P out.facts) := by
  obtain ⟨s, hr⟩ := ran_iff.1 h
  obtain ⟨s', hr'⟩ := ran_iff.1 h'
  have ho' : Objects (P.edited fs) := objects_edited ho
  refine Package.plan_eq ?_ ?_ he.types
  · funext o
    show (if ∃ f ∈ P.funcs, P.env.funcObj f = o then none else out'.facts.codes o) = if ∃ f ∈ P.funcs, P.env.funcObj f = o then none else out.facts.codes o
    split
    · rfl
    · rename_i hf
      have k1 : ∀ f ∈ P.funcs, P.env.funcObj f ≠ o := fun f hf' he => hf ⟨f, hf', he⟩
      obtain ⟨-, a2, a3⟩ := hr.out_codes hS ho hp
      obtain ⟨-, b2, b3⟩ := hr'.out_codes hS' ho' hp
      by_cases hm : ∃ d ∈ P.ifaces, ∃ im, .method im ∈ d.elements ∧ P.methodObj im.ident.id = o
      · obtain ⟨d, hd, im, him, rfl⟩ := hm
        exact Option.ext fun C => (b2 d hd im him C).trans (a2 d hd im him C).symm
      · have k2 : ∀ d ∈ P.ifaces, ∀ im, .method im ∈ d.elements → P.methodObj im.ident.id ≠ o :=
          fun d hd im him he => hm ⟨d, hd, im, him, he⟩
        exact (b3 o k1 k2).trans (a3 o k1 k2).symm
  · obtain ⟨a1, a2⟩ := hr.out_ctor hS ho
    rw [← (hr.out_rest hS ho).1] at a1 a2
    obtain ⟨b1, b2⟩ := hr'.out_ctor hS' ho'
    rw [← (hr'.out_rest hS' ho').1] at b1 b2
    funext o
    show out'.facts.ctor o = out.facts.ctor o
    by_cases hf : ∃ f ∈ P.funcs, P.env.funcObj f = o
    · obtain ⟨f, hf, rfl⟩ := hf
      refine Option.ext fun n => (b1 f hf n).trans (Iff.trans ?_ (a1 f hf n).symm)
      simp only [compared_edited he.signatures]
    · have k1 : ∀ f ∈ P.funcs, P.env.funcObj f ≠ o := fun f hf' he => hf ⟨f, hf', he⟩
      exact (b2 o k1).trans (a2 o k1).symm

/-- If no methods are changed, the error types found are the same, and so are the reports about them. -/
theorem onlyBodies_of_functions (h : runVerify P S strict = .ok out) (h' : runVerify (P.edited fs) S' strict' = .ok out') (hS : S.Fair)
    (hS' : S'.Fair) (ho : Objects P) (hs : ∀ f, ((P.edited fs).env.func f).type = (P.env.func f).type)
    (hm : ∀ f ∈ P.funcs, P.decls.recv f ≠ none → (P.edited fs).env.func f = P.env.func f) :
    OnlyBodies P fs out out' ∧ out'.tags = out.tags := by
  obtain ⟨s, hr⟩ := ran_iff.1 h
  obtain ⟨s', hr'⟩ := ran_iff.1 h'
  have hmeth : ∀ name, ∀ m ∈ P.start.methods name, (P.start.withFuncs fs).func m = P.start.func m := by
    intro name m hmem
    have hmem : m ∈ (collectFunctions P.decls P.funcs).2 name := hmem
    rw [collectFunctions_methods] at hmem
    have h2 := List.mem_filter.1 hmem
    simp only [Bool.and_eq_true, Option.isSome_iff_ne_none, beq_iff_eq] at h2
    exact hm m h2.1 h2.2.1
  have e := hr'.tag
  have e0 : (P.edited fs).start = P.start.withFuncs fs := rfl
  rw [e0] at e
  have e := (tagging_withFuncs hmeth P.specs P.env.facts).symm.trans e
  have e := hr.tag.symm.trans e
  simp only [Except.ok.injEq, Prod.mk.injEq] at e
  exact ⟨⟨hs, by rw [(hr.out_rest hS ho).2.1, (hr'.out_rest hS' (objects_edited ho)).2.1, e.1]⟩, e.2.symm⟩

theorem plan_edited (h : runVerify P S strict = .ok out) (h' : runVerify (P.edited fs) S' strict' = .ok out') (hS : S.Fair)
    (hS' : S'.Fair) (ho : Objects P) (hp : Interfaces.Program P.ifaces) (he : OnlyBodies P fs out out') {f : FnId}
    (hf : (P.edited fs).env.func f = P.env.func f) :
    (P.edited fs).plan (during (P.edited fs) out'.facts) f = P.plan (during P out.facts) f := by
  rw [during_edited h h' hS hS' ho hp he]
  exact Analyse.plan_withFuncs (env := P.at_ (during P out.facts)) hf P.depth

/-- **C48.** The bodies of some functions are changed, but of none which the declared function `f` calls, directly or indirectly (nor its
own).  Then the reports in its body, and in the bodies it calls, are the same as before. -/
theorem body_reports_local (h : runVerify P S strict = .ok out) (h' : runVerify (P.edited fs) S' strict' = .ok out') (hS : S.Fair)
    (hS' : S'.Fair) (ho : Objects P) (hp : Interfaces.Program P.ifaces) (he : OnlyBodies P fs out out') {f : FnId} {c : FuncCodes}
    (hf : Compared P f c) (hun : ∀ g, Reach (Calls (P.plan (during P out.facts))) f g → (P.edited fs).env.func g = P.env.func g)
    {g : FnId} (hg : Reach (Calls (P.plan (during P out.facts))) f g) : reportedIn out' g = reportedIn out g := by
  have hplan : ∀ g, Reach (Calls (P.plan (during P out.facts))) f g →
      (P.edited fs).plan (during (P.edited fs) out'.facts) g = P.plan (during P out.facts) g :=
    fun g hg => plan_edited h h' hS hS' ho hp he (hun g hg)
  have ha : Analysed P out.facts g := ⟨f, c, hf, hg⟩
  have ha' : Analysed (P.edited fs) out'.facts g := ⟨f, c, (compared_edited he.signatures).2 hf, (reach_local hplan).1 hg⟩
  have looked : ∀ {P : Package} {out : Outcome} {g : FnId}, Analysed P out.facts g → LookedAt P out.facts g := by
    intro P out g ⟨f, c, hc, hr⟩
    refine ⟨f, .inl ⟨c, hc⟩, ?_⟩
    clear ha ha'
    have key : ∀ {a b : FnId}, Reach (Calls (P.plan (during P out.facts))) f a → Reach (Calls (P.plan (during P out.facts))) a b →
        Reach (Calls (seen P out.facts)) a b := by
      intro a b hfa hab
      induction hab with
      | refl a => exact .refl a
      | step hc' _ ih =>
        refine .step ?_ (ih (hfa.trans (.step hc' (.refl _))))
        unfold Calls seen
        rw [if_pos ⟨f, c, hc, hfa⟩]
        exact hc'
    exact key (.refl f) hr
  rw [(Run.bodies_once h hS ho hp g).1 (looked ha), (Run.bodies_once h' hS' (objects_edited ho) hp g).1 (looked ha')]
  unfold seen
  rw [if_pos ha, if_pos ha', hplan g hg]

/-- **C48.** … and the report about its declaration is the same as before.

Partial: functions that can reach a literal calling back are excluded, as in `mismatches_exact_partial`. -/
theorem mismatch_local_partial (h : runVerify P S strict = .ok out) (h' : runVerify (P.edited fs) S' strict' = .ok out') (hS : S.Fair)
    (hS' : S'.Fair) (ho : Objects P) (hp : Interfaces.Program P.ifaces) (he : OnlyBodies P fs out out') {f : FnId}
    (hun : ∀ g, Reach (Calls (P.plan (during P out.facts))) f g → (P.edited fs).env.func g = P.env.func g)
    (hl : CallGraph.Settled (P.plan (during P out.facts)) f) (text : GoString) :
    (f, text) ∈ out'.mismatches ↔ (f, text) ∈ out.mismatches := by
  have hplan : ∀ g, Reach (Calls (P.plan (during P out.facts))) f g →
      (P.edited fs).plan (during (P.edited fs) out'.facts) g = P.plan (during P out.facts) g :=
    fun g hg => plan_edited h h' hS hS' ho hp he (hun g hg)
  rw [(Run.mismatches_exact_partial h hS ho hp).1 f hl,
    (Run.mismatches_exact_partial h' hS' (objects_edited ho) hp).1 f (settled_local hplan hl)]
  simp only [compared_edited he.signatures, codes_local hplan]

/-! ## Example

In the package with the wrong declaration of `F` (`Props/Corrections.lean`), the body of the method `Get`, which `F` does not call, is
replaced: it now returns `&Err{"a-error"}`.  The report about the conversion disappears, the one about `F` stays. -/

def edit : List FuncDef := Run.pkgEnv.funcs.set 4 ⟨113, some ⟨114, b!"Get", none⟩, ⟨[], some [⟨[], 115⟩], 410⟩,
  some [.ret 80 [.unary 81 true (.compositeLit 82 [.basicLit 5])]], 420, 500⟩

def editOut : Outcome :=
  match runVerify (Run.wrong.edited edit) Run.schedule' false with
  | .ok out => out
  | .error _ => ⟨Run.pkg.env.facts, [], [], [], [], [], [], []⟩

theorem edit_ran : runVerify (Run.wrong.edited edit) Run.schedule' false = .ok editOut := rfl

theorem edit_onlyBodies : OnlyBodies Run.wrong edit Run.wrongOut editOut := by
  refine ⟨fun f => ?_, rfl⟩
  match f with
  | 0 | 1 | 2 | 3 | 4 => rfl
  | f + 5 => rfl

theorem edit_unreached (g : FnId) (h : Reach (Calls (Run.wrong.plan (during Run.wrong Run.wrongOut.facts))) 0 g) :
    (Run.wrong.edited edit).env.func g = Run.wrong.env.func g := by
  have : g ≠ 4 := by
    have key : ∀ {a b : FnId}, Reach (Calls (Run.wrong.plan (during Run.wrong Run.wrongOut.facts))) a b → a ∈ [0, 1, 2] → b ∈ [0, 1, 2] := by
      intro a b hr
      induction hr with
      | refl => exact id
      | @step a b c hc _ ih =>
        intro ha
        refine ih ?_
        have all : ∀ a ∈ [0, 1, 2], ∀ b ∈ (Run.wrong.plan (during Run.wrong Run.wrongOut.facts) a).targets, b ∈ [0, 1, 2] := by
          intro a ha b hb
          simp only [List.mem_cons, List.not_mem_nil, or_false] at ha
          rcases ha with rfl | rfl | rfl
          · have e : (Run.wrong.plan (during Run.wrong Run.wrongOut.facts) 0).targets = [2, 1] := rfl
            rw [e] at hb; revert b; decide
          · have e : (Run.wrong.plan (during Run.wrong Run.wrongOut.facts) 1).targets = [] := rfl
            rw [e] at hb; cases hb
          · have e : (Run.wrong.plan (during Run.wrong Run.wrongOut.facts) 2).targets = [] := rfl
            rw [e] at hb; cases hb
        exact all a ha b hc
    have := key h (by decide)
    rintro rfl
    revert this; decide
  match g with
  | 0 | 1 | 2 | 3 => rfl
  | 4 => exact absurd rfl this
  | g + 5 => rfl

/-- The hypotheses are met. -/
theorem edit_kept : (0, b!"missing codes: [b-error c-error] unused codes: [z-error]") ∈ editOut.mismatches :=
  (mismatch_local_partial Run.wrong_ran edit_ran Run.schedule_fair Run.schedule'_fair (Run.objects_documented Run.pkg_objects) Run.pkg_program
    edit_onlyBodies edit_unreached (Run.wrong_settled 0) _).2 (by rw [Run.wrong_reports]; exact List.mem_singleton.2 rfl)

theorem edit_effect : Run.wrongOut.conversions = [⟨63, some 20, b!"Get", [b!"x-error"]⟩] ∧ editOut.conversions = [] := by decide +kernel

end Props.Edits
end Serum
