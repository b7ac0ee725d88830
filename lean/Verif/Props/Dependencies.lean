import Verif.Dependencies
import Verif.Props.Corrections
import Verif.Props.Edits
import Verif.Props.RunCrash
import Verif.Props.SessionSame

/-!
# C50 — when a dependency declares other codes

A package is analysed again after the declarations of functions in other packages have been changed: other codes are recorded for the
functions of dependencies.
-/

namespace Serum.Props.Dependencies
open RunSpec CodeFormat Run

/-- The code `x` is reported as missing in the declaration of `f`. -/
def ReportedMissing (out : Outcome) (f : FnId) (x : GoString) : Prop :=
  ∃ missing unused, (f, Reports.mismatchText missing unused) ∈ out.mismatches ∧ (∀ c, c ∈ missing ∨ c ∈ unused → WellFormed c) ∧ x ∈ missing

/-- The code `x` is reported as unused in the declaration of `f`. -/
def ReportedUnused (out : Outcome) (f : FnId) (x : GoString) : Prop :=
  ∃ missing unused, (f, Reports.mismatchText missing unused) ∈ out.mismatches ∧ (∀ c, c ∈ missing ∨ c ∈ unused → WellFormed c) ∧ x ∈ unused

/-- Two sets of imported facts differ only in the codes of functions with declarations. -/
structure OtherCodes (F F' : Facts) : Prop where
  ctor : F'.ctor = F.ctor
  errorType : F'.errorType = F.errorType
  interface : F'.interface = F.interface
  declared : ∀ o, F.codes o = none ↔ F'.codes o = none

/-- The declaration of some function in a dependency gained or lost the code. -/
def Changed (F F' : Facts) (x : GoString) : Prop := ∃ o a b, F.codes o = some a ∧ F'.codes o = some b ∧ ¬ (x ∈ a ↔ x ∈ b)

/-- No declaration in a dependency lost a code. -/
def Gained (F F' : Facts) : Prop := ∀ o a b, F.codes o = some a → F'.codes o = some b → ∀ x ∈ a, x ∈ b

variable {N D : Type} {plan plan' : N → Plan N D}

theorem calls_like {R : CodeSet → CodeSet → Prop} (h : ∀ g, (plan g).Like R (plan' g)) : Calls plan' = Calls plan := by
  funext f g; unfold Calls; rw [(h f).targets]

/-- A code which only more functions have is found where it was found. -/
theorem codes_like {c : GoString} (h : ∀ g, (plan g).Like (fun a b => c ∈ a → c ∈ b) (plan' g)) {f : N} (hc : CodesOf plan f c) :
    CodesOf plan' f c := by
  intro ρ hρ
  have := hc (fun g x => x = c → ρ g x) ⟨fun g x hy e => ?_, fun g k x hm hx e => ?_⟩
  · exact this rfl
  · subst e
    refine hρ.1 g x ((h g).yields ?_)
    exact Edits.yields_local (fun z _ hz => hz rfl) hy
  · subst e
    refine hρ.2 g k x ?_ (hx rfl)
    rw [calls_like h]; exact hm

theorem settled_like [DecidableEq N] {R : CodeSet → CodeSet → Prop} (h : ∀ g, (plan g).Like R (plan' g)) {f : N}
    (hs : CallGraph.Settled plan f) : CallGraph.Settled plan' f := by
  intro g hg z hz hr
  rw [calls_like h] at hg hr
  rw [(h g).visits] at hz
  exact hs g hg z hz hr

/-! ## Runs -/

variable {P : Package} {S S' : Schedule} {strict : Bool} {out out' : Outcome} {F : Facts}

theorem objects_given (hF : OtherCodes P.env.facts F) (ho : Objects P) : Objects (P.given F) where
  funcs := ho.funcs
  distinct := ho.distinct
  methods := ho.methods
  apart := ho.apart
  interfaces := ho.interfaces
  imported := fun f hf => ⟨(hF.declared _).1 (ho.imported f hf).1, (congrFun hF.ctor _).trans (ho.imported f hf).2⟩
  importedMethods := fun d hd im him => (hF.declared _).1 (ho.importedMethods d hd im him)
  importedInterfaces := fun d hd => (congrFun hF.interface _).trans (ho.importedInterfaces d hd)
  importedTables := fun o ms h => ho.importedTables o ms ((congrFun hF.interface _).symm.trans h)

/-- What two runs have recorded: the same, but for the codes of functions of other packages. -/
structure Recorded (F F' a b : Facts) : Prop where
  ctor : a.ctor = b.ctor
  errorType : a.errorType = b.errorType
  interface : ∀ o, (a.interface o = none ∧ b.interface o = none) ∨
    ∃ ms ms', a.interface o = some ms ∧ b.interface o = some ms' ∧ ms.Perm ms'
  codes : ∀ o, a.codes o = b.codes o ∨ a.codes o = F.codes o ∧ b.codes o = F'.codes o

set_option smartUnfolding false in
private theorem tag_withCodes (env : Env) (K : Object → Option CodeSet) : tagErrorType (env.withCodes K) = tagErrorType env := rfl

theorem start_given (hF : OtherCodes P.env.facts F) : (P.given F).start = P.start.withCodes F.codes := by
  unfold Package.start Package.given Env.withCodes
  have h1 := hF.ctor; have h2 := hF.errorType; have h3 := hF.interface
  dsimp only
  rw [← h1, ← h2, ← h3]

theorem tags_given (hF : OtherCodes P.env.facts F) {s s' : Stages} (h : Prepared P S strict s out)
    (h' : Prepared (P.given F) S' strict s' out') : s.tagged.errorType = s'.tagged.errorType ∧ out.tags = out'.tags := by
  have ht := h'.tag
  rw [start_given hF] at ht
  exact tags_same (env := P.start) (env' := P.start.withCodes F.codes) rfl (tag_withCodes _ _) hF.errorType.symm h.tag ht

theorem imports_given (hF : OtherCodes P.env.facts F) : SameImports P.env (P.given F).env := sameImports rfl hF.interface.symm

theorem recorded (hF : OtherCodes P.env.facts F) {s s' : Stages} (h : Prepared P S strict s out) (h' : Prepared (P.given F) S' strict s' out')
    (hS : S.Fair) (hS' : S'.Fair) (ho : Objects P) (hp : Interfaces.Program P.ifaces) : Recorded P.env.facts F out.facts out'.facts where
  codes := by
    obtain ⟨a1, a2, a3⟩ := h.out_codes hS ho hp
    obtain ⟨b1, b2, b3⟩ := h'.out_codes hS' (objects_given hF ho) hp
    intro o
    by_cases hf : ∃ f ∈ P.funcs, P.env.funcObj f = o
    · obtain ⟨f, hf, rfl⟩ := hf
      exact .inl (Option.ext fun C => by rw [a1 f hf]; exact (b1 f hf C).symm)
    · by_cases hm : ∃ d ∈ P.ifaces, ∃ im, .method im ∈ d.elements ∧ P.methodObj im.ident.id = o
      · obtain ⟨d, hd, im, him, rfl⟩ := hm
        exact .inl (Option.ext fun C => by rw [a2 d hd im him]; exact (b2 d hd im him C).symm)
      · have k1 : ∀ f ∈ P.funcs, P.env.funcObj f ≠ o := fun f hf' he => hf ⟨f, hf', he⟩
        have k2 : ∀ d ∈ P.ifaces, ∀ im, .method im ∈ d.elements → P.methodObj im.ident.id ≠ o :=
          fun d hd im him he => hm ⟨d, hd, im, him, he⟩
        exact .inr ⟨a3 o k1 k2, b3 o k1 k2⟩
  ctor := by
    obtain ⟨a1, a2⟩ := h.out_ctor hS ho
    rw [← (h.out_rest hS ho).1] at a1 a2
    obtain ⟨b1, b2⟩ := h'.out_ctor hS' (objects_given hF ho)
    rw [← (h'.out_rest hS' (objects_given hF ho)).1] at b1 b2
    funext o
    by_cases hf : ∃ f ∈ P.funcs, P.env.funcObj f = o
    · obtain ⟨f, hf, rfl⟩ := hf
      exact Option.ext fun C => by rw [a1 f hf]; exact (b1 f hf C).symm
    · have k1 : ∀ f ∈ P.funcs, P.env.funcObj f ≠ o := fun f hf' he => hf ⟨f, hf', he⟩
      rw [a2 o k1, b2 o k1]; exact (congrFun hF.ctor o).symm
  errorType := by
    rw [(h.out_rest hS ho).2.1, (h'.out_rest hS' (objects_given hF ho)).2.1]
    exact (tags_given hF h h').1
  interface := by
    obtain ⟨a1, a2⟩ := h.interfaces_exact_partial hS ho hp
    obtain ⟨b1, b2⟩ := h'.interfaces_exact_partial hS' (objects_given hF ho) hp
    have hi := imports_given hF
    have hhas : ∀ d m C, IfaceSpec.Has P.env P.ifaces d m C ↔ IfaceSpec.Has (P.given F).env P.ifaces d m C := fun d m C =>
      ⟨has_congr (env := P.env) (env' := (P.given F).env) rfl rfl hi, has_congr (env := (P.given F).env) (env' := P.env) rfl rfl hi.symm⟩
    have htakes : ∀ d m C, IfaceSpec.Takes P.env P.ifaces d m C ↔ IfaceSpec.Takes (P.given F).env P.ifaces d m C := fun d m C =>
      ⟨takesFrom_congr (env := P.env) (env' := (P.given F).env) rfl rfl hi,
        takesFrom_congr (env := (P.given F).env) (env' := P.env) rfl rfl hi.symm⟩
    intro o
    by_cases hd : ∃ d ∈ P.ifaces, d.obj = o
    · obtain ⟨d, hd, rfl⟩ := hd
      cases ho : out.facts.interface d.obj with
      | none =>
        cases ho' : out'.facts.interface d.obj with
        | none => exact .inl ⟨rfl, rfl⟩
        | some ms' =>
          obtain ⟨m, C, hh⟩ := (b1 d hd).1.1 ⟨ms', ho'⟩
          obtain ⟨ms, hms⟩ := (a1 d hd).1.2 ⟨m, C, (hhas d m C).2 hh⟩
          rw [ho] at hms; cases hms
      | some ms =>
        obtain ⟨m, C, hh⟩ := (a1 d hd).1.1 ⟨ms, ho⟩
        obtain ⟨ms', hms'⟩ := (b1 d hd).1.2 ⟨m, C, (hhas d m C).1 hh⟩
        obtain ⟨k1, k2⟩ := (a1 d hd).2 ms ho
        obtain ⟨l1, l2⟩ := (b1 d hd).2 ms' hms'
        exact .inr ⟨ms, ms', rfl, hms', perm_of_keys k1 l1 fun m C => by rw [k2, l2]; exact htakes d m C⟩
    · have k : ∀ d ∈ P.ifaces, d.obj ≠ o := fun d hd' he => hd ⟨d, hd', he⟩
      rw [a2 o k, b2 o k]
      show _ ∨ _
      rw [show (P.given F).env.facts.interface o = P.env.facts.interface o from congrFun hF.interface o]
      exact (SameFacts.refl P.env.facts).interface o

variable {R : CodeSet → CodeSet → Prop}

theorem related (hR : ∀ a, R a a) (hF : OtherCodes P.env.facts F) (hK : ∀ o a b, P.env.facts.codes o = some a → F.codes o = some b → R a b)
    {a b : Facts} (h : Recorded P.env.facts F a b) : Analyse.Related R a.codes b.codes := by
  intro o
  rcases h.codes o with e | ⟨e1, e2⟩
  · rw [e]
    cases hb : b.codes o with
    | none => exact .inl ⟨rfl, rfl⟩
    | some s => exact .inr ⟨s, s, rfl, rfl, hR s⟩
  · rw [e1, e2]
    cases h1 : P.env.facts.codes o with
    | none => exact .inl ⟨rfl, (hF.declared o).1 h1⟩
    | some s =>
      cases h2 : F.codes o with
      | none => rw [(hF.declared o).2 h2] at h1; cases h1
      | some t => exact .inr ⟨s, t, rfl, rfl, hK o s t h1 h2⟩

/-- Bodies are understood in the same way, but for the codes of called functions of other packages. -/
theorem plan_recorded (hR : ∀ a, R a a) {a b : Facts} (h1 : a.ctor = b.ctor) (h2 : a.errorType = b.errorType)
    (hK : Analyse.Related R a.codes b.codes) (f : FnId) : (P.plan a f).Like R (P.plan b f) := by
  have e : P.plan b = P.plan { a with codes := b.codes } := Package.plan_eq rfl h1.symm h2.symm
  rw [e]
  exact Analyse.plan_withCodes (env := P.at_ a) (K := b.codes) hR hK P.depth f

theorem during_recorded (hR : ∀ a, R a a) {a b : Facts} (h1 : a.ctor = b.ctor) (h2 : a.errorType = b.errorType)
    (hK : Analyse.Related R a.codes b.codes) (f : FnId) : (P.plan (during P a) f).Like R (P.plan (during P b) f) := by
  refine plan_recorded (a := during P a) (b := during P b) hR h1 h2 (fun o => ?_) f
  unfold during
  dsimp only
  split
  · exact .inl ⟨rfl, rfl⟩
  · exact hK o

theorem compared_lists (h : runVerify P S strict = .ok out) (hS : S.Fair) (ho : Objects P) (hp : Interfaces.Program P.ifaces)
    {f : FnId} {c : FuncCodes} (hc : Compared P f c) (hs : CallGraph.Settled (P.plan (during P out.facts)) f) :
    ∃ missing unused, Lists missing (fun x => CodesOf (P.plan (during P out.facts)) f x ∧ x ∉ c.codes) ∧
        Lists unused (fun x => x ∈ c.codes ∧ ¬ CodesOf (P.plan (during P out.facts)) f x) := by
  obtain ⟨s, h⟩ := ran_iff.1 h
  rw [← facts_during h hS ho hp] at hs ⊢
  obtain ⟨hfst, hcodes⟩ := CallGraph.codes_are_least_partial h.search
  have hf : f ∈ s.found.map Prod.fst := by rw [hfst]; exact List.mem_map.2 ⟨_, (hS.claims _).mem_iff.2 ((h.claims_iff hS ho.funcs).2 hc), rfl⟩
  obtain ⟨⟨f', C⟩, hC, rfl⟩ := List.mem_map.1 hf
  obtain ⟨-, missing, unused, lm, lu, -⟩ := Reports.mismatch_exact (S.claimMatch f') (hS.claimMatch f') C c.codes
  have hcc := hcodes f' C hC hs
  exact ⟨missing, unused, ⟨lm.1, lm.2.1, fun x => by rw [lm.2.2]; simp only [hcc]⟩, ⟨lu.1, lu.2.1, fun x => by rw [lu.2.2]; simp only [hcc]⟩⟩

/-- Which code is reported missing, or unused, in terms of the codes found. -/
theorem missing_iff (h : runVerify P S strict = .ok out) (hS : S.Fair) (ho : Objects P) (hp : Interfaces.Program P.ifaces)
    (ha : PrintsAscii P.env.isPrint) (hw : AllWellFormed P.env.facts) {f : FnId} (hs : CallGraph.Settled (P.plan (during P out.facts)) f) (x : GoString) :
    (ReportedMissing out f x ↔ ∃ c, Compared P f c ∧ CodesOf (P.plan (during P out.facts)) f x ∧ x ∉ c.codes) ∧
    (ReportedUnused out f x ↔ ∃ c, Compared P f c ∧ x ∈ c.codes ∧ ¬ CodesOf (P.plan (during P out.facts)) f x) := by
  have hout := exported_wellFormed h hS ho hp ha hw
  obtain ⟨hex, -⟩ := mismatches_exact_partial h hS ho hp
  have plain : ∀ {c missing unused}, Compared P f c → Lists missing (fun x => CodesOf (P.plan (during P out.facts)) f x ∧ x ∉ c.codes) →
      Lists unused (fun x => x ∈ c.codes ∧ ¬ CodesOf (P.plan (during P out.facts)) f x) → ∀ y, y ∈ missing ∨ y ∈ unused → WellFormed y := by
    intro c mi un hc hmi hun y hy
    rcases hy with hy | hy
    · exact codesOf_wf (during_wf hout) ha ((hmi.2.2 y).1 hy).1
    · exact compared_wf hc y ((hun.2.2 y).1 hy).1
  have read : ∀ {missing unused}, (f, Reports.mismatchText missing unused) ∈ out.mismatches → (∀ c, c ∈ missing ∨ c ∈ unused → WellFormed c) →
      ∃ c, Compared P f c ∧ Lists missing (fun x => CodesOf (P.plan (during P out.facts)) f x ∧ x ∉ c.codes) ∧
        Lists unused (fun x => x ∈ c.codes ∧ ¬ CodesOf (P.plan (during P out.facts)) f x) := by
    intro mi un hm hwf
    obtain ⟨c, mi', un', hc, hmi, hun, -, ht⟩ := (hex f hs _).1 hm
    obtain ⟨rfl, rfl⟩ := Texts.mismatch_readable (fun x hx => Texts.plain_of_wellFormed (hwf x hx))
      (fun x hx => Texts.plain_of_wellFormed (plain hc hmi hun x hx)) ht
    exact ⟨c, hc, hmi, hun⟩
  have write : ∀ {c}, Compared P f c → (¬ ∀ y, y ∈ c.codes ↔ CodesOf (P.plan (during P out.facts)) f y) →
      ∃ missing unused, (f, Reports.mismatchText missing unused) ∈ out.mismatches ∧ (∀ c, c ∈ missing ∨ c ∈ unused → WellFormed c) ∧
        Lists missing (fun x => CodesOf (P.plan (during P out.facts)) f x ∧ x ∉ c.codes) ∧
        Lists unused (fun x => x ∈ c.codes ∧ ¬ CodesOf (P.plan (during P out.facts)) f x) := by
    intro c hc hne
    obtain ⟨missing, unused, hmi, hun⟩ : ∃ missing unused, Lists missing (fun x => CodesOf (P.plan (during P out.facts)) f x ∧ x ∉ c.codes) ∧
        Lists unused (fun x => x ∈ c.codes ∧ ¬ CodesOf (P.plan (during P out.facts)) f x) := compared_lists h hS ho hp hc hs
    refine ⟨missing, unused, (hex f hs _).2 ⟨c, missing, unused, hc, hmi, hun, ?_, rfl⟩, plain hc hmi hun, hmi, hun⟩
    by_cases e : missing = [] ∧ unused = []
    · obtain ⟨rfl, rfl⟩ := e
      refine absurd (fun y => ?_) hne
      have h1 := hmi.2.2 y; have h2 := hun.2.2 y
      simp only [List.not_mem_nil, false_iff, not_and, Classical.not_not] at h1 h2
      exact ⟨h2, h1⟩
    · rcases Classical.not_and_iff_not_or_not.1 e with e | e
      · exact .inl e
      · exact .inr e
  refine ⟨⟨?_, ?_⟩, ⟨?_, ?_⟩⟩
  · rintro ⟨mi, un, hm, hwf, hx⟩
    obtain ⟨c, hc, hmi, -⟩ := read hm hwf
    exact ⟨c, hc, (hmi.2.2 x).1 hx⟩
  · rintro ⟨c, hc, h1, h2⟩
    obtain ⟨mi, un, hm, hwf, hmi, -⟩ := write hc fun e => h2 ((e x).2 h1)
    exact ⟨mi, un, hm, hwf, (hmi.2.2 x).2 ⟨h1, h2⟩⟩
  · rintro ⟨mi, un, hm, hwf, hx⟩
    obtain ⟨c, hc, -, hun⟩ := read hm hwf
    exact ⟨c, hc, (hun.2.2 x).1 hx⟩
  · rintro ⟨c, hc, h1, h2⟩
    obtain ⟨mi, un, hm, hwf, -, hun⟩ := write hc fun e => h2 ((e x).1 h1)
    exact ⟨mi, un, hm, hwf, (hun.2.2 x).2 ⟨h1, h2⟩⟩

/-- The bodies of two runs. -/
private theorem two (h : runVerify P S strict = .ok out) (h' : runVerify (P.given F) S' strict = .ok out') (hS : S.Fair) (hS' : S'.Fair)
    (ho : Objects P) (hp : Interfaces.Program P.ifaces) (hF : OtherCodes P.env.facts F) : Recorded P.env.facts F out.facts out'.facts := by
  obtain ⟨s, h⟩ := ran_iff.1 h
  obtain ⟨s', h'⟩ := ran_iff.1 h'
  exact recorded hF h.toPrepared h'.toPrepared hS hS' ho hp

/-- **C50.** When functions of other packages are declared with other codes, then for each declared function of this package the codes
reported as missing, or as unused, change only by the codes added to or removed from declarations of other packages.

Partial: functions that can reach a literal calling back are excluded, as in `mismatches_exact_partial`. -/
theorem changes_local_partial (h : runVerify P S strict = .ok out) (h' : runVerify (P.given F) S' strict = .ok out') (hS : S.Fair)
    (hS' : S'.Fair) (ho : Objects P) (hp : Interfaces.Program P.ifaces) (ha : PrintsAscii P.env.isPrint) (hw : AllWellFormed P.env.facts)
    (hw' : AllWellFormed F) (hF : OtherCodes P.env.facts F) {f : FnId} (hs : CallGraph.Settled (P.plan (during P out.facts)) f) {x : GoString}
    (hx : ¬ Changed P.env.facts F x) :
    (ReportedMissing out' f x ↔ ReportedMissing out f x) ∧ (ReportedUnused out' f x ↔ ReportedUnused out f x) := by
  have hr := two h h' hS hS' ho hp hF
  have fwd : ∀ g, (P.plan (during P out.facts) g).Like (fun a b => x ∈ a → x ∈ b) (P.plan (during P out'.facts) g) := fun g =>
    during_recorded (fun _ => id) hr.ctor hr.errorType (related (fun _ => id) hF
      (fun o a b h1 h2 hxa => Classical.byContradiction fun hxb => hx ⟨o, a, b, h1, h2, fun e => hxb (e.1 hxa)⟩) hr) g
  have bwd : ∀ g, (P.plan (during P out'.facts) g).Like (fun a b => x ∈ a → x ∈ b) (P.plan (during P out.facts) g) := fun g => by
    have : Analyse.Related (fun a b => x ∈ b → x ∈ a) out.facts.codes out'.facts.codes := related (fun _ => id) hF
      (fun o a b h1 h2 hxb => Classical.byContradiction fun hxa => hx ⟨o, a, b, h1, h2, fun e => hxa (e.2 hxb)⟩) hr
    refine during_recorded (fun _ => id) hr.ctor.symm hr.errorType.symm (fun o => ?_) g
    rcases this o with ⟨k1, k2⟩ | ⟨a, b, k1, k2, k3⟩
    · exact .inl ⟨k2, k1⟩
    · exact .inr ⟨b, a, k2, k1, k3⟩
  have hc : CodesOf (P.plan (during P out'.facts)) f x ↔ CodesOf (P.plan (during P out.facts)) f x := ⟨codes_like bwd, codes_like fwd⟩
  have e1 := missing_iff h hS ho hp ha hw hs x
  have e2 := missing_iff (P := P.given F) h' hS' (objects_given hF ho) hp ha hw' (f := f)
    (show CallGraph.Settled (P.plan (during P out'.facts)) f from settled_like fwd hs) x
  rw [e1.1, e1.2, e2.1, e2.2]
  show ((∃ c, Compared P f c ∧ CodesOf (P.plan (during P out'.facts)) f x ∧ x ∉ c.codes) ↔ _) ∧
    ((∃ c, Compared P f c ∧ x ∈ c.codes ∧ ¬ CodesOf (P.plan (during P out'.facts)) f x) ↔ _)
  rw [hc]
  exact ⟨Iff.rfl, Iff.rfl⟩

/-- **C50.** If declarations of other packages only gain codes, then codes reported as missing are still reported as missing, and no
codes are newly reported as unused.

Partial: as `changes_local_partial`. -/
theorem gains_monotone_partial (h : runVerify P S strict = .ok out) (h' : runVerify (P.given F) S' strict = .ok out') (hS : S.Fair)
    (hS' : S'.Fair) (ho : Objects P) (hp : Interfaces.Program P.ifaces) (ha : PrintsAscii P.env.isPrint) (hw : AllWellFormed P.env.facts)
    (hw' : AllWellFormed F) (hF : OtherCodes P.env.facts F) (hg : Gained P.env.facts F) {f : FnId}
    (hs : CallGraph.Settled (P.plan (during P out.facts)) f) (x : GoString) :
    (ReportedMissing out f x → ReportedMissing out' f x) ∧ (ReportedUnused out' f x → ReportedUnused out f x) := by
  have hr := two h h' hS hS' ho hp hF
  have fwd : ∀ g, (P.plan (during P out.facts) g).Like (fun a b => x ∈ a → x ∈ b) (P.plan (during P out'.facts) g) := fun g =>
    during_recorded (fun _ => id) hr.ctor hr.errorType (related (fun _ => id) hF (fun o a b h1 h2 => hg o a b h1 h2 x) hr) g
  have e1 := missing_iff h hS ho hp ha hw hs x
  have e2 := missing_iff (P := P.given F) h' hS' (objects_given hF ho) hp ha hw' (f := f)
    (show CallGraph.Settled (P.plan (during P out'.facts)) f from settled_like fwd hs) x
  rw [e1.1, e1.2, e2.1, e2.2]
  constructor
  · rintro ⟨c, h1, h2, h3⟩; exact ⟨c, h1, codes_like fwd h2, h3⟩
  · rintro ⟨c, h1, h2, h3⟩; exact ⟨c, h1, h2, fun h4 => h3 (codes_like fwd h4)⟩

theorem analysed_given {R : CodeSet → CodeSet → Prop} (hl : ∀ g, (P.plan (during P out.facts) g).Like R (P.plan (during P out'.facts) g)) {f : FnId} :
    Analysed P out.facts f ↔ Analysed P out'.facts f := by
  unfold Analysed; rw [calls_like hl]

theorem seen_given {R : CodeSet → CodeSet → Prop} (hl : ∀ g, (P.plan (during P out.facts) g).Like R (P.plan (during P out'.facts) g))
    (hl' : ∀ g, (P.plan out.facts g).Like R (P.plan out'.facts g)) (f : FnId) : (seen P out.facts f).Like R (seen P out'.facts f) := by
  unfold seen
  by_cases ha : Analysed P out.facts f
  · rw [if_pos ha, if_pos ((analysed_given hl).1 ha)]; exact hl f
  · rw [if_neg ha, if_neg fun ha' => ha ((analysed_given hl).2 ha')]; exact hl' f

/-- The run's facts with the other run's codes. -/
def recode (a b : Facts) : Facts := { b with codes := a.codes }

theorem recode_same {F F' a b : Facts} (h : Recorded F F' a b) : SameFacts a (recode a b) := ⟨rfl, h.ctor, h.errorType, h.interface⟩

set_option smartUnfolding false in
theorem checks_recode (a b : Facts) : checks P (recode a b) = checks P b := rfl

theorem asked_recode {a b : Facts} (hn : ∀ o, a.codes o = none ↔ b.codes o = none) {f : FnId} :
    Asked (P.at_ (recode a b)) (checks P (recode a b)) f ↔ Asked (P.at_ b) (checks P b) f := by
  have hm : ∀ T m o, ConvSpec.MethodOf (P.at_ (recode a b)) T m o ↔ ConvSpec.MethodOf (P.at_ b) T m o := fun T m o =>
    ⟨fun k => by cases k with
      | direct k => exact .direct k
      | pointer k1 k2 k3 => exact .pointer k1 k2 k3,
     fun k => by cases k with
      | direct k => exact .direct k
      | pointer k1 k2 k3 => exact .pointer k1 k2 k3⟩
  rw [checks_recode]
  unfold Asked
  constructor
  · rintro ⟨c, h1, h2, h3, m, al, o, h4, h5, h6, h7⟩
    exact ⟨c, h1, h2, h3, m, al, o, h4, (hm _ _ _).1 h5, (hn o).1 h6, h7⟩
  · rintro ⟨c, h1, h2, h3, m, al, o, h4, h5, h6, h7⟩
    exact ⟨c, h1, h2, h3, m, al, o, h4, (hm _ _ _).2 h5, (hn o).2 h6, h7⟩

/-- **C50.** All other reports stay the same: those about types, interfaces, signatures, doc comments and in function bodies. -/
theorem others_unchanged (h : runVerify P S strict = .ok out) (h' : runVerify (P.given F) S' strict = .ok out') (hS : S.Fair)
    (hS' : S'.Fair) (ho : Objects P) (hp : Interfaces.Program P.ifaces) (hF : OtherCodes P.env.facts F) :
    out.tags = out'.tags ∧ out.ifaces.Perm out'.ifaces ∧ out.signatures.Perm out'.signatures ∧ out.claims.Perm out'.claims ∧
    (∀ f, reportedIn out' f = reportedIn out f) ∧ out.bodies.Perm out'.bodies := by
  have hr := two h h' hS hS' ho hp hF
  have ho' := objects_given hF ho
  have hbodies : ∀ f, reportedIn out' f = reportedIn out f := by
    intro f
    have hrel : Analyse.Related (fun _ _ => True) out.facts.codes out'.facts.codes := related (fun _ => trivial) hF (fun _ _ _ _ _ => trivial) hr
    have hn : ∀ o, out.facts.codes o = none ↔ out'.facts.codes o = none := fun o => by
      rcases hrel o with ⟨k1, k2⟩ | ⟨a, b, k1, k2, -⟩ <;> simp [k1, k2]
    have hl := fun g => during_recorded (P := P) (R := fun _ _ => True) (fun _ => trivial) hr.ctor hr.errorType hrel g
    have hl' := fun g => plan_recorded (P := P) (R := fun _ _ => True) (fun _ => trivial) hr.ctor hr.errorType hrel g
    have hseen := seen_given hl hl'
    have hlooked : LookedAt P out.facts f ↔ LookedAt P out'.facts f := by
      unfold LookedAt
      rw [calls_like hseen]
      have : ∀ g, Asked (P.at_ out.facts) (checks P out.facts) g ↔ Asked (P.at_ out'.facts) (checks P out'.facts) g := fun g =>
        Iff.trans ⟨asked_same (recode_same hr), asked_same (recode_same hr).symm⟩ (asked_recode hn)
      simp only [this]
    have k := bodies_once h hS ho hp f
    have k' := bodies_once h' hS' ho' hp f
    by_cases hv : LookedAt P out.facts f
    · rw [k.1 hv, k'.1 (hlooked.1 hv)]; exact (hseen f).reports
    · rw [k.2 hv, k'.2 fun hv' => hv (hlooked.2 hv')]
  refine ⟨?_, ?_, ?_, ?_, hbodies, ?_⟩
  · obtain ⟨s, h⟩ := ran_iff.1 h
    obtain ⟨s', h'⟩ := ran_iff.1 h'
    exact (tags_given hF h.toPrepared h'.toPrepared).2
  · obtain ⟨s, h⟩ := ran_iff.1 h
    obtain ⟨s', h'⟩ := ran_iff.1 h'
    have hi : SameImports (P.at_ s.tagged) ((P.given F).at_ s'.tagged) := by
      refine fun id m C => Iff.trans ?_ ((imports_given hF id m C).trans ?_)
      · exact sameImports (env := P.at_ s.tagged) (env' := P.env) rfl h.toPrepared.tagged_rest.2.2 id m C
      · exact sameImports (env := (P.given F).env) (env' := (P.given F).at_ s'.tagged) rfl h'.toPrepared.tagged_rest.2.2.symm id m C
    exact Interfaces.reports_same (h.toPrepared.iface_fair hS ho) (h'.toPrepared.iface_fair hS' ho') rfl rfl rfl
      (fun d x => clashes_congr (env := P.at_ s.tagged) (env' := (P.given F).at_ s'.tagged) rfl rfl hi) hp hS.ifaceNames hS'.ifaceNames h.find h'.find
  · obtain ⟨s, h⟩ := ran_iff.1 h
    obtain ⟨s', h'⟩ := ran_iff.1 h'
    rw [signatures_list h.funcs, signatures_list h'.funcs]
    exact perm_flatMap ((hS.functions _).trans (hS'.functions _).symm) _
  · obtain ⟨-, fs, h1, h2, e, h3, h4⟩ := declaration_reports_exact h hS ho.funcs
    obtain ⟨-, fs', h1', h2', e', h3', h4'⟩ := declaration_reports_exact h' hS' ho'.funcs
    have : e' = e := funext fun f => Option.ext fun x => by rw [h3', h3]; rfl
    rw [h4, h4', this]
    exact List.Perm.filterMap _ ((List.perm_ext_iff_of_nodup h1 h1').2 fun f => by rw [h2, h2']; rfl)
  · classical
    refine perm_of_each fun f => ?_
    have e : ∀ l : List (FnId × Diag), l.filter (fun x => x.1 = f) = ((l.filter fun x => x.1 = f).map Prod.snd).map fun d => (f, d) := by
      intro l
      induction l with
      | nil => rfl
      | cons a l ih =>
        by_cases ha : a.1 = f
        · simp only [ha, List.filter_cons, decide_true, if_true, List.map_cons]; rw [← ih, ← ha]
        · simp only [ha, List.filter_cons, decide_false]; exact ih
    have := hbodies f
    unfold reportedIn at this
    rw [e out.bodies, e out'.bodies, this]

theorem like_panics {R : CodeSet → CodeSet → Prop} {p q : Plan N D} (h : p.Like R q) : q.panics = p.panics := by
  induction h with
  | union _ _ h1 h2 => simp only [Plan.panics, h1, h2]
  | minus _ _ h => simp only [Plan.panics, h]
  | _ => rfl

theorem like_calls {R : CodeSet → CodeSet → Prop} {p q : Plan N D} (h : p.Like R q) : q.calls = p.calls := by
  induction h with
  | union _ _ h1 h2 => simp only [Plan.calls, h1, h2]
  | minus _ _ h => simp only [Plan.calls, h]
  | _ => rfl

theorem recorded_none (hF : OtherCodes P.env.facts F) {a b : Facts} (hr : Recorded P.env.facts F a b) (o : Object) :
    a.codes o = none ↔ b.codes o = none := by
  rcases related (R := fun _ _ => True) (fun _ => trivial) hF (fun _ _ _ _ _ => trivial) hr o with ⟨k1, k2⟩ | ⟨a, b, k1, k2, -⟩ <;> simp [k1, k2]

theorem recorded_seen (hF : OtherCodes P.env.facts F) (hr : Recorded P.env.facts F out.facts out'.facts) (f : FnId) :
    (seen P out.facts f).Like (fun _ _ => True) (seen P out'.facts f) :=
  seen_given (fun g => during_recorded (fun _ => trivial) hr.ctor hr.errorType (related (fun _ => trivial) hF (fun _ _ _ _ _ => trivial) hr) g)
    (fun g => plan_recorded (fun _ => trivial) hr.ctor hr.errorType (related (fun _ => trivial) hF (fun _ _ _ _ _ => trivial) hr) g) f

theorem recorded_lookedAt (hF : OtherCodes P.env.facts F) (hr : Recorded P.env.facts F out.facts out'.facts) (f : FnId) :
    LookedAt P out.facts f ↔ LookedAt P out'.facts f := by
  unfold LookedAt
  rw [calls_like (recorded_seen hF hr)]
  have : ∀ g, Asked (P.at_ out.facts) (checks P out.facts) g ↔ Asked (P.at_ out'.facts) (checks P out'.facts) g := fun g =>
    Iff.trans ⟨asked_same (recode_same hr), asked_same (recode_same hr).symm⟩ (asked_recode (recorded_none hF hr))
  simp only [this]

theorem methodsExist_recode {a b : Facts} :
    Conv.MethodsExist (P.at_ (recode a b)) (checks P (recode a b)) ↔ Conv.MethodsExist (P.at_ b) (checks P b) := by
  rw [checks_recode]
  constructor <;> intro h c hc h1 h2 m al hm <;> obtain ⟨ob, k⟩ := h c hc h1 h2 m al hm <;> refine ⟨ob, ?_⟩ <;> cases k with
    | direct k => exact .direct k
    | pointer k1 k2 k3 => exact .pointer k1 k2 k3

/-- **C50.** Whether the analysis of the package panics does not depend on the codes which functions of other packages declare.

Partial: function literals are as the parser guarantees (`ValuesUncalled`). -/
theorem success_partial (hF : OtherCodes P.env.facts F) (hS : S.Fair) (hS' : S'.Fair) (ho : Objects P)
    (hp : Interfaces.Program P.ifaces) (hd : Declarations P) (hv : ∀ s out, Prepared P S strict s out → ValuesUncalled P out.facts) :
    (∃ r, runVerify P S strict = .ok r) ↔ ∃ r, runVerify (P.given F) S' strict = .ok r := by
  refine success_alike hS hS' ho (objects_given hF ho) hp
    (Iff.trans (declarations_read hS ho.funcs hd) (declarations_read (P := P.given F) hS' ho.funcs ⟨hd.parsed, hd.arity⟩).symm) hv (fun h h' f => ?_) (fun h h' f => ?_) (fun h h' => ?_)
  all_goals have hr := recorded hF h h' hS hS' ho hp
  · exact recorded_lookedAt hF hr f
  · have hl := recorded_seen hF hr f
    exact ⟨(like_panics hl).symm, hl.visits.symm, (like_calls hl).symm⟩
  · refine ⟨Iff.trans ⟨noPanic_same (recode_same hr), noPanic_same (recode_same hr).symm⟩ ?_,
      Iff.trans ⟨methodsExist_same (recode_same hr), methodsExist_same (recode_same hr).symm⟩ methodsExist_recode⟩
    rw [checks_recode]

/-! ## Example

`a.Use` of the program of `LinkedExample` now declares `b-error`, too. -/

namespace Example
open Linked.Example

def moreFacts : Facts := { aFacts with codes := fun o => if o = 70 then some [b!"a-error", b!"b-error"] else aFacts.codes o }

def bOut' : Outcome :=
  match runVerify (bPkg.given moreFacts) schedule' false with
  | .ok out => out
  | .error _ => ⟨bPkg.env.facts, [], [], [], [], [], [], []⟩

theorem b_ran' : runVerify (bPkg.given moreFacts) schedule' false = .ok bOut' := rfl

theorem other : OtherCodes bPkg.env.facts moreFacts where
  ctor := rfl
  errorType := rfl
  interface := rfl
  declared := fun o => by
    show aFacts.codes o = none ↔ moreFacts.codes o = none
    unfold moreFacts aFacts
    dsimp only
    by_cases h : o = 70
    · simp [h]
    · simp [h]

theorem gained : Gained bPkg.env.facts moreFacts := by
  intro o a b h1 h2 x hx
  have h1 : aFacts.codes o = some a := h1
  unfold moreFacts at h2
  dsimp only at h2
  split at h2
  · rename_i h
    subst h
    cases h1; cases h2
    simp only [List.mem_cons, List.not_mem_nil, or_false] at hx ⊢
    exact .inl hx
  · rw [h1] at h2; cases h2; exact hx

theorem now_missing : bOut.mismatches = [] ∧ bOut'.mismatches = [(1, Reports.mismatchText [b!"b-error"] [])] := by decide

theorem wf_a : WellFormed b!"a-error" := (isErrorCodeValid_iff_wellFormed _).1 (by decide)
theorem wf_b : WellFormed b!"b-error" := (isErrorCodeValid_iff_wellFormed _).1 (by decide)

theorem wellFormed : AllWellFormed bPkg.env.facts := by
  refine ⟨fun o C h => ?_, fun o t h => ?_, fun o ms h => ?_⟩
  · have h : aFacts.codes o = some C := h
    unfold aFacts at h
    dsimp only at h
    (repeat' split at h) <;> cases h <;> intro c hc <;> simp only [List.mem_cons, List.not_mem_nil, or_false] at hc
    · subst hc; exact wf_a
    · subst hc; exact wf_a
  · have h : aFacts.errorType o = some t := h
    unfold aFacts at h
    dsimp only at h
    split at h <;> cases h
    intro c hc; cases hc
  · have h : aFacts.interface o = some ms := h
    unfold aFacts at h
    dsimp only at h
    split at h <;> cases h
    intro m C hm c hc
    simp only [List.mem_singleton, Prod.mk.injEq] at hm
    obtain ⟨rfl, rfl⟩ := hm
    simp only [List.mem_singleton] at hc
    subst hc; exact wf_a

theorem wellFormed' : AllWellFormed moreFacts := by
  refine ⟨fun o C h => ?_, wellFormed.types, wellFormed.interfaces⟩
  unfold moreFacts at h
  dsimp only at h
  split at h
  · cases h
    intro c hc
    simp only [List.mem_cons, List.not_mem_nil, or_false] at hc
    rcases hc with rfl | rfl
    · exact wf_a
    · exact wf_b
  · exact wellFormed.codes o C h

theorem printsAscii : PrintsAscii bPkg.env.isPrint := fun r h => by
  show (decide (32 ≤ r) && decide (r < 127)) = _
  rfl

/-- The hypotheses of the theorems hold for the example. -/
theorem local_changes (f : FnId) (x : GoString) (hx : ¬ Changed bPkg.env.facts moreFacts x) :
    (ReportedMissing bOut' f x ↔ ReportedMissing bOut f x) ∧ (ReportedUnused bOut' f x ↔ ReportedUnused bOut f x) :=
  changes_local_partial b_ran b_ran' schedule_fair schedule'_fair b_objects b_program printsAscii wellFormed wellFormed' other
    (Session.Again.settled_b' f) hx

theorem changed : Changed bPkg.env.facts moreFacts b!"b-error" ∧ ¬ Changed bPkg.env.facts moreFacts b!"a-error" := by
  refine ⟨⟨70, _, _, rfl, rfl, by decide⟩, ?_⟩
  rintro ⟨o, a, b, h1, h2, h3⟩
  have h1 : aFacts.codes o = some a := h1
  unfold moreFacts at h2
  dsimp only at h2
  split at h2
  · rename_i h
    subst h
    cases h1; cases h2
    exact h3 (by decide)
  · rw [h1] at h2; cases h2; exact h3 Iff.rfl

theorem monotone (f : FnId) (x : GoString) :
    (ReportedMissing bOut f x → ReportedMissing bOut' f x) ∧ (ReportedUnused bOut' f x → ReportedUnused bOut f x) :=
  gains_monotone_partial b_ran b_ran' schedule_fair schedule'_fair b_objects b_program printsAscii wellFormed wellFormed' other gained
    (Session.Again.settled_b' f) x

theorem still : bOut.bodies.Perm bOut'.bodies :=
  (others_unchanged b_ran b_ran' schedule_fair schedule'_fair b_objects b_program other).2.2.2.2.2

end Example

end Serum.Props.Dependencies
