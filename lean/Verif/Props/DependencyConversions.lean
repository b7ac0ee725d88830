import Verif.ConvertsFacts
import Verif.Props.Dependencies
import Verif.Props.RunReports

/-!
# C50 — when a dependency declares other codes: reports about conversions
-/

namespace Serum.Props.Dependencies
open RunSpec CodeFormat Run ConvSpec Conversions

variable {P : Package} {S S' : Schedule} {strict : Bool} {out out' : Outcome} {F : Facts} {R : CodeSet → CodeSet → Prop}

theorem Recorded.symm {F F' a b : Facts} (h : Recorded F F' a b) : Recorded F' F b a where
  ctor := h.ctor.symm
  errorType := h.errorType.symm
  interface := fun o => (h.interface o).imp (fun k => ⟨k.2, k.1⟩) fun ⟨ms, ms', k1, k2, k3⟩ => ⟨ms', ms, k2, k1, k3.symm⟩
  codes := fun o => (h.codes o).imp Eq.symm fun k => ⟨k.2, k.1⟩

theorem Recorded.interface_none {F F' a b : Facts} (h : Recorded F F' a b) (o : Object) : b.interface o = none ↔ a.interface o = none := by
  rcases h.interface o with ⟨k1, k2⟩ | ⟨ms, ms', k1, k2, -⟩ <;> simp [k1, k2]

/-- What makes a code reported at a conversion carries over, if the code is in all declarations in which it was. -/
theorem smuggled_transfer {a b : Facts} (hr : Recorded P.env.facts F a b) {x : GoString}
    (hrel : Analyse.Related (fun s t => x ∈ s → x ∈ t) a.codes b.codes)
    (hseen : ∀ g, (seen P a g).Like (fun s t => x ∈ s → x ∈ t) (seen P b g)) {calls : CallKind} {e : NodeId} {i : Option Object} {m : GoString}
    (h : ∃ T S ms allowed, ConvertedTo (P.at_ a) P.conv calls P.top T S e ∧ S ≠ T ∧
      S ≠ .untypedNil ∧ IsErrorInterface (P.at_ a) T ms ∧ getNamedType T = i ∧ (m, allowed) ∈ ms ∧
      MethodCode (P.at_ a) (seen P a) S m x ∧ x ∉ allowed) :
    ∃ T S ms allowed, ConvertedTo (P.at_ b) P.conv calls P.top T S e ∧ S ≠ T ∧
      S ≠ .untypedNil ∧ IsErrorInterface (P.at_ b) T ms ∧ getNamedType T = i ∧ (m, allowed) ∈ ms ∧
      MethodCode (P.at_ b) (seen P b) S m x ∧ x ∉ allowed := by
  obtain ⟨T, S, ms, al, h1, h2, h3, ⟨o, h4, h4'⟩, h5, h6, h7, h8⟩ := h
  rcases hr.interface o with ⟨k, -⟩ | ⟨ms1, ms', k1, k2, k3⟩
  · exact nomatch k.symm.trans h4'
  · have : ms1 = ms := Option.some.inj (k1.symm.trans h4')
    subst this
    refine ⟨T, S, ms', al, convertedTo_facts (env := P.at_ a) (F := b) h1, h2, h3, ⟨o, h4, k2⟩, h5, k3.mem_iff.1 h6, ?_, h8⟩
    cases h7 with
    | declared j1 j2 j3 =>
      rename_i ob C
      rcases hrel ob with ⟨k, -⟩ | ⟨s, t, k1, k2, k3⟩
      · exact nomatch k.symm.trans j2
      · have : s = C := Option.some.inj (k1.symm.trans j2)
        subst this
        exact .declared (methodOf_facts (env := P.at_ a) (F := b) j1) k2 (k3 j3)
    | found j1 j2 j3 j4 =>
      rename_i ob f
      rcases hrel ob with ⟨-, k⟩ | ⟨s, t, k1, -, -⟩
      · exact .found (methodOf_facts (env := P.at_ a) (F := b) j1) k j3 (codes_like hseen j4)
      · exact nomatch k1.symm.trans j2

theorem methodSettled_like {a b : Facts} (hn : ∀ o, a.codes o = none ↔ b.codes o = none) (hseen : ∀ g, (seen P a g).Like R (seen P b g)) {T : GoType}
    {m : GoString} (h : MethodSettled (P.at_ a) (seen P a) T m) : MethodSettled (P.at_ b) (seen P b) T m :=
  fun ob f h1 h2 h3 => settled_like hseen (h ob f (methodOf_facts (env := P.at_ b) (F := a) h1) ((hn ob).2 h2) h3)

/-- The seen bodies of both runs, compared. -/
private theorem both (hR : ∀ a, R a a) {a b : Facts} (h1 : a.ctor = b.ctor) (h2 : a.errorType = b.errorType)
    (hrel : Analyse.Related R a.codes b.codes) (g : FnId) : (seen P a g).Like R (seen P b g) :=
  let mk (x : Facts) : Outcome := ⟨x, [], [], [], [], [], [], []⟩
  seen_given (out := mk a) (out' := mk b) (fun g => during_recorded hR h1 h2 hrel g) (fun g => plan_recorded hR h1 h2 hrel g) g

variable {calls : CallKind} {e : NodeId} {i : Option Object} {m : GoString}

private theorem compared_runs (h : runVerify P S strict = .ok out) (h' : runVerify (P.given F) S' strict = .ok out') (hS : S.Fair)
    (hS' : S'.Fair) (ho : Objects P) (hp : Interfaces.Program P.ifaces) (hF : OtherCodes P.env.facts F)
    (hf : Fine (P.at_ out.facts) P.conv calls P.top)
    (hl : ∀ T S, ConvertedTo (P.at_ out.facts) P.conv calls P.top T S e → MethodSettled (P.at_ out.facts) (seen P out.facts) S m) (x : GoString) :
    Recorded P.env.facts F out.facts out'.facts ∧
    (ReportedSmuggled out e i m x ↔ ∃ T S ms allowed, ConvertedTo (P.at_ out.facts) P.conv calls P.top T S e ∧ S ≠ T ∧
      S ≠ .untypedNil ∧ IsErrorInterface (P.at_ out.facts) T ms ∧ getNamedType T = i ∧ (m, allowed) ∈ ms ∧
      MethodCode (P.at_ out.facts) (seen P out.facts) S m x ∧ x ∉ allowed) ∧
    (ReportedSmuggled out' e i m x ↔ ∃ T S ms allowed, ConvertedTo (P.at_ out'.facts) P.conv calls P.top T S e ∧ S ≠ T ∧
      S ≠ .untypedNil ∧ IsErrorInterface (P.at_ out'.facts) T ms ∧ getNamedType T = i ∧ (m, allowed) ∈ ms ∧
      MethodCode (P.at_ out'.facts) (seen P out'.facts) S m x ∧ x ∉ allowed) := by
  have hr : Recorded P.env.facts F out.facts out'.facts := by
    obtain ⟨s, h⟩ := ran_iff.1 h
    obtain ⟨s', h'⟩ := ran_iff.1 h'
    exact recorded hF h.toPrepared h'.toPrepared hS hS' ho hp
  refine ⟨hr, smuggled_iff_partial h hS ho hp hf hl x, ?_⟩
  refine smuggled_iff_partial (P := P.given F) h' hS' (objects_given hF ho) hp
    (show Fine (P.at_ out'.facts) P.conv calls P.top from fine_facts (env := P.at_ out.facts) (F := out'.facts) hr.interface_none hf) ?_ x
  intro T S hc
  exact methodSettled_like (P := P) (recorded_none hF hr) (recorded_seen hF hr) (hl T S (convertedTo_facts (env := P.at_ out'.facts) (F := out.facts) hc))

/-- **C50**, conversions: when functions of other packages are declared with other codes, then for each expression used as an error
interface the codes reported change only by the codes added to or removed from declarations of other packages.

Partial: as `Run.smuggled_iff_partial`. -/
theorem conversions_local_partial (h : runVerify P S strict = .ok out) (h' : runVerify (P.given F) S' strict = .ok out') (hS : S.Fair)
    (hS' : S'.Fair) (ho : Objects P) (hp : Interfaces.Program P.ifaces) (hF : OtherCodes P.env.facts F)
    (hf : Fine (P.at_ out.facts) P.conv calls P.top)
    (hl : ∀ T S, ConvertedTo (P.at_ out.facts) P.conv calls P.top T S e → MethodSettled (P.at_ out.facts) (seen P out.facts) S m) {x : GoString}
    (hx : ¬ Changed P.env.facts F x) : ReportedSmuggled out' e i m x ↔ ReportedSmuggled out e i m x := by
  obtain ⟨hr, e1, e2⟩ := compared_runs (i := i) h h' hS hS' ho hp hF hf hl x
  have fwd : Analyse.Related (fun s t => x ∈ s → x ∈ t) out.facts.codes out'.facts.codes := related (fun _ => id) hF
      (fun o a b h1 h2 hxa => Classical.byContradiction fun hxb => hx ⟨o, a, b, h1, h2, fun e => hxb (e.1 hxa)⟩) hr
  have bwd : Analyse.Related (fun s t => x ∈ s → x ∈ t) out'.facts.codes out.facts.codes := by
    have : Analyse.Related (fun a b => x ∈ b → x ∈ a) out.facts.codes out'.facts.codes := related (fun _ => id) hF
      (fun o a b h1 h2 hxb => Classical.byContradiction fun hxa => hx ⟨o, a, b, h1, h2, fun e => hxa (e.2 hxb)⟩) hr
    intro o
    rcases this o with ⟨k1, k2⟩ | ⟨a, b, k1, k2, k3⟩
    · exact .inl ⟨k2, k1⟩
    · exact .inr ⟨b, a, k2, k1, k3⟩
  rw [e1, e2]
  exact ⟨smuggled_transfer (P := P.given F) (F := P.env.facts) hr.symm bwd (both (fun _ => id) hr.ctor.symm hr.errorType.symm bwd),
    smuggled_transfer hr fwd (both (fun _ => id) hr.ctor hr.errorType fwd)⟩

/-- **C50**, conversions: if declarations of other packages only gain codes, then codes reported at a conversion are still reported.

Partial: as `conversions_local_partial`. -/
theorem conversions_monotone_partial (h : runVerify P S strict = .ok out) (h' : runVerify (P.given F) S' strict = .ok out') (hS : S.Fair)
    (hS' : S'.Fair) (ho : Objects P) (hp : Interfaces.Program P.ifaces) (hF : OtherCodes P.env.facts F)
    (hf : Fine (P.at_ out.facts) P.conv calls P.top)
    (hl : ∀ T S, ConvertedTo (P.at_ out.facts) P.conv calls P.top T S e → MethodSettled (P.at_ out.facts) (seen P out.facts) S m)
    (hg : Gained P.env.facts F) {x : GoString} (hx : ReportedSmuggled out e i m x) : ReportedSmuggled out' e i m x := by
  obtain ⟨hr, e1, e2⟩ := compared_runs (i := i) h h' hS hS' ho hp hF hf hl x
  have fwd : Analyse.Related (fun s t => x ∈ s → x ∈ t) out.facts.codes out'.facts.codes := related (fun _ => id) hF
      (fun o a b h1 h2 => hg o a b h1 h2 x) hr
  exact e2.2 (smuggled_transfer hr fwd (both (fun _ => id) hr.ctor hr.errorType fwd) (e1.1 hx))

/-! ## Example

As `b` of `LinkedExample`, but `Impl.Get` has no declaration and calls `a.Other` (object 73), which declared `a-error` and now declares
`b-error`, too. -/

namespace Smuggling
open Linked.Example

def oldFacts : Facts := { aFacts with codes := fun o => if o = 73 then some [b!"a-error"] else aFacts.codes o }
def newFacts : Facts := { aFacts with codes := fun o => if o = 73 then some [b!"a-error", b!"b-error"] else aFacts.codes o }

def pkg : Package :=
  { bPkg with
    env := { bEnv with callee := fun n => if n = 81 then some 73 else if n = 91 then some 70 else none, facts := oldFacts }
    decls := { bPkg.decls with doc := fun f => if f = 0 then none else some aError } }

def pkgOut : Outcome :=
  match runVerify pkg schedule false with
  | .ok out => out
  | .error _ => ⟨pkg.env.facts, [], [], [], [], [], [], []⟩

def pkgOut' : Outcome :=
  match runVerify (pkg.given newFacts) schedule' false with
  | .ok out => out
  | .error _ => ⟨pkg.env.facts, [], [], [], [], [], [], []⟩

theorem ran : runVerify pkg schedule false = .ok pkgOut := rfl
theorem ran' : runVerify (pkg.given newFacts) schedule' false = .ok pkgOut' := rfl

/-- The literal `Impl{}`, passed to `a.Use`, is now reported. -/
theorem now_reported : pkgOut.conversions = [] ∧ pkgOut'.conversions = [⟨95, some 20, b!"Get", [b!"b-error"]⟩] := by decide

theorem objects : Objects pkg where
  funcs := by decide
  distinct := fun f _ g _ h => Nat.add_left_cancel (n := 80) h
  methods := fun d hd => (nomatch hd)
  apart := fun f hf d hd => (nomatch hd)
  imported := by
    intro f hf
    simp only [pkg, bPkg, List.mem_cons, List.not_mem_nil, or_false] at hf
    rcases hf with rfl | rfl <;> exact ⟨by decide, by decide⟩
  importedMethods := fun d hd => (nomatch hd)
  interfaces := fun d hd => (nomatch hd)
  importedInterfaces := fun d hd => (nomatch hd)
  importedTables := by
    intro o ms h
    simp only [pkg, oldFacts, aFacts] at h
    split at h
    · cases h; decide
    · cases h

theorem other : OtherCodes pkg.env.facts newFacts where
  ctor := rfl
  errorType := rfl
  interface := rfl
  declared := fun o => by
    show oldFacts.codes o = none ↔ newFacts.codes o = none
    unfold newFacts oldFacts
    dsimp only
    by_cases h : o = 73
    · simp [h]
    · simp [h]

theorem gained : Gained pkg.env.facts newFacts := by
  intro o a b h1 h2 x hx
  have h1 : oldFacts.codes o = some a := h1
  unfold newFacts at h2
  unfold oldFacts at h1
  dsimp only at h1 h2
  split at h2
  · rename_i h
    subst h
    cases h1; cases h2
    simp only [List.mem_cons, List.not_mem_nil, or_false] at hx ⊢
    exact .inl hx
  · rename_i h
    rw [if_neg h, h2] at h1; cases h1; exact hx

theorem unchanged : ¬ Changed pkg.env.facts newFacts b!"a-error" := by
  rintro ⟨o, a, b, h1, h2, h3⟩
  have h1 : oldFacts.codes o = some a := h1
  unfold newFacts at h2
  unfold oldFacts at h1
  dsimp only at h1 h2
  split at h2
  · rename_i h
    subst h
    cases h1; cases h2
    exact h3 (by decide)
  · rename_i h
    rw [if_neg h, h2] at h1; cases h1; exact h3 Iff.rfl

theorem fine : Fine (pkg.at_ pkgOut.facts) pkg.conv Linked.onlyCalls pkg.top := Linked.plainTop_fine (by decide)

theorem visits (facts : Facts) (h : facts = pkgOut.facts ∨ facts = during pkg pkgOut.facts) (f : FnId) : (pkg.plan facts f).visits = [] := by
  rcases h with rfl | rfl
  all_goals
    match f with
    | 0 | 1 => rfl
    | f + 2 => simp [Package.plan, Package.at_, Package.start, Analyse.plan, Analyse.bodyPlan, Env.func, pkg, bPkg, bEnv, Plan.visits]

theorem settled (f : FnId) : CallGraph.Settled (seen pkg pkgOut.facts) f := by
  refine CallGraph.NoLiteralCycle.settled ?_ f
  intro f g hg
  unfold seen at hg
  split at hg
  · rw [visits _ (.inr rfl)] at hg; cases hg
  · rw [visits _ (.inl rfl)] at hg; cases hg

/-- The hypotheses of the theorems hold for the example. -/
theorem local_changes (e : NodeId) (i : Option Object) (m : GoString) : ReportedSmuggled pkgOut' e i m b!"a-error" ↔ ReportedSmuggled pkgOut e i m b!"a-error" :=
  conversions_local_partial ran ran' schedule_fair schedule'_fair objects b_program other fine (fun _ _ _ _ f _ _ _ => settled f) unchanged

theorem monotone (e : NodeId) (i : Option Object) (m x : GoString) : ReportedSmuggled pkgOut e i m x → ReportedSmuggled pkgOut' e i m x :=
  conversions_monotone_partial ran ran' schedule_fair schedule'_fair objects b_program other fine (fun _ _ _ _ f _ _ _ => settled f) gained

end Smuggling

end Serum.Props.Dependencies
