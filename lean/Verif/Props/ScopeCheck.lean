import Verif.ScopeCheck
import Verif.Props.BodyCheck
import Verif.Props.RunReports

/-!
# C24 — checking a package

`quiet` evaluates the hypotheses of C24 for a set of functions of a package, so that soundness holds for all executions of these functions.
-/

namespace Serum.Check
open Serum RunSpec Props.Run Analyse

/-- Functions in scope about whose bodies nothing is expected to be reported, and which call only each other. -/
def quiet (P : Package) (facts : Facts) (X : Runtime.Extra) (e : Expected) (g : Graph) (fs : List FnId) : Bool :=
  fs.all fun f => (match (P.env.func f).body with | some body => inScope (P.at_ (during P facts)) X f body | none => false) &&
    e.bodies.all (fun d => d.1 != f) && ((g.at_ f).1 ++ (g.at_ f).2).all fs.contains

/-- The program with what other packages do. -/
def _root_.Serum.Runtime.Extra.within (X : Runtime.Extra) (foreign : ErrorType → GoString → Prop) (declared : Object → GoString → Runtime.Obj → Prop) :
    Runtime.Extra := { X with foreign, declared }

/-- What C24 says about functions of a package: in every run, if no mismatch is reported for one of these functions, then every error it
returns when executed has a declared code (or none; or the code given as argument, for error constructors), whatever other packages do,
if they do what they declare. -/
def SilentSound (P : Package) (X : Runtime.Extra) (strict : Bool) (fs : List FnId) : Prop :=
  ∀ S : Schedule, S.Fair → ∀ out, runVerify P S strict = .ok out → ∀ foreign declared, Runtime.ForeignStores (X.within foreign declared) →
    Runtime.Promises (P.at_ (during P out.facts)) (X.within foreign declared) → ∀ f ∈ fs, ∀ c, Compared P f c → (∀ text, (f, text) ∉ out.mismatches) →
    ∀ arg o, Runtime.Yields (P.at_ (during P out.facts)) (X.within foreign declared) (.ret f arg) o → ∀ code, o.may code →
      code = [] ∨ code ∈ c.codes ∨ (c.param ≠ none ∧ code = arg)

variable {P : Package} {facts facts' : Facts} {f : FnId} {body : List Node} {X : Runtime.Extra} {foreign : ErrorType → GoString → Prop}
  {declared : Object → GoString → Runtime.Obj → Prop}

set_option smartUnfolding false in
theorem inScope_at {i : Object → Option (List (GoString × CodeSet))} :
    inScope (P.at_ { facts with interface := i }) (X.within foreign declared) f body = inScope (P.at_ facts) X f body := rfl

theorem inScope_same (h : SameFacts facts facts') (hs : inScope (P.at_ (during P facts)) X f body = true) :
    inScope (P.at_ (during P facts')) (X.within foreign declared) f body = true := by
  have : during P facts' = { during P facts with interface := facts'.interface } := by
    unfold during
    rw [h.codes, h.ctor, h.errorType]
  rw [this, inScope_at]
  exact hs

variable {g : Graph} {e : Expected} {strict : Bool} {fs : List FnId}

/-- **C24** for a package for which the checks succeed. -/
theorem silentSound (h : run P strict e g = true) (ht : Tables P.env.facts)
    (hq : quiet P (factsOf (runVerify P source strict)) X e g fs = true) (ascii : PrintsAscii P.env.isPrint) : SilentSound P X strict fs := by
  intro S hS out hr foreign declared hforeign hpromise f hf c hc hm arg o hy code hcode
  unfold run at h
  split at h
  · cases h
  rename_i out₀ ho
  simp only [Bool.and_eq_true, safe] at h
  obtain ⟨ha, ⟨⟨⟨h1, h2⟩, h3⟩, -⟩, h5⟩ := h
  simp only [agrees, Bool.and_eq_true, decide_eq_true_eq] at ha
  have hbodies : out₀.bodies = e.bodies := ha.1.1.1.2
  rw [ho] at hq
  have hs := facts_order_independent_partial ho hr source_fair hS (objects_sound h1 ht) (program_sound h2)
  have hplan : P.plan (during P out.facts) = P.plan (during P out₀.facts) := (during_same hs).symm
  have hcov : ∀ f, (∀ z ∈ (P.plan (during P out.facts) f).calls, z ∈ (g.at_ f).1) ∧ ∀ z ∈ (P.plan (during P out.facts) f).visits, z ∈ (g.at_ f).2 := by
    intro f
    rw [hplan]
    have := covers_sound h3 f
    exact ⟨fun z hz => this.1 z (.inl hz), fun z hz => this.2 z (.inl hz)⟩
  have hall : out₀.bodies.Perm out.bodies := (same_inputs_partial (.refl _) ho hr source_fair hS (objects_sound h1 ht) (program_sound h2)
    (fun f _ _ => (noCallback_sound h5 fun f => by rw [← hplan]; exact hcov f).settled f)
    fun f _ => (noCallback_sound h5 fun f => seen_covered h3 f).settled f).bodies
  simp only [quiet, List.all_eq_true, Bool.and_eq_true, List.contains_eq_mem, decide_eq_true_eq, bne_iff_ne, ne_eq] at hq
  have hreach : ∀ z, Reach (Calls (P.plan (during P out.facts))) f z → z ∈ fs := fun z hz =>
    Reach.closed (S := fun x => x ∈ fs) (fun a b ha hab => (hq a ha).2 b (by
      rcases (Plan.mem_targets_iff _).1 hab with hab | hab
      · exact List.mem_append_left _ ((hcov a).1 b hab)
      · exact List.mem_append_right _ ((hcov a).2 b hab))) hz hf
  refine silent_declared_partial hr hS (objects_sound h1 ht) (program_sound h2) ascii hforeign hpromise (fun z hz => ?_) (fun z hz => ?_)
    ((noCallback_sound h5 hcov).settled f) hc hm hy hcode
  · have := (hq z (hreach z hz)).1.2
    simp only [reportedIn, List.map_eq_nil_iff, List.filter_eq_nil_iff, decide_eq_true_eq]
    exact fun d hd => this d (hbodies ▸ hall.mem_iff.2 hd)
  · have := (hq z (hreach z hz)).1.1
    split at this
    · rename_i body hb
      exact inScope_sound hb (inScope_same hs this)
    · cases this

/-! ## Without hypotheses about the run -/

/-- These functions are declared with these codes, and no mismatch is expected. -/
def agreed (P : Package) (e : Expected) (fs : List FnId) (ds : List (FnId × CodeSet)) : Bool :=
  ds.all fun d => fs.contains d.1 && P.funcs.contains d.1 && decide (P.env.funcObj d.1 < e.objects) &&
    decide (find (P.env.funcObj d.1) e.codes = some d.2) && e.mismatches.all fun m => m.1 != d.1

/-- Whatever the orders in which maps are iterated, there is a run over the package, and each of the listed functions returns, whenever
it is executed, only errors with the listed codes (or none; or the code given as argument, for error constructors): whatever other
packages do, if they do what they declare. -/
def ReturnsOnly (P : Package) (X : Runtime.Extra) (strict : Bool) (ctors : List (Object × Nat)) (ds : List (FnId × CodeSet)) : Prop :=
  ∀ S : Schedule, S.Fair → ∃ out, runVerify P S strict = .ok out ∧ ∀ foreign declared, Runtime.ForeignStores (X.within foreign declared) →
    Runtime.Promises (P.at_ (during P out.facts)) (X.within foreign declared) → ∀ f C, (f, C) ∈ ds →
    ∀ arg o, Runtime.Yields (P.at_ (during P out.facts)) (X.within foreign declared) (.ret f arg) o → ∀ code, o.may code →
      code = [] ∨ code ∈ C ∨ (find (P.env.funcObj f) ctors ≠ none ∧ code = arg)

/-- **C24** for a package for which the checks succeed, without hypotheses about the run. -/
theorem returnsOnly (h : run P strict e g = true) (ht : Tables P.env.facts)
    (hq : quiet P (factsOf (runVerify P source strict)) X e g fs = true) (ascii : PrintsAscii P.env.isPrint) {ds : List (FnId × CodeSet)}
    (hd : agreed P e fs ds = true) : ReturnsOnly P X strict e.ctors ds := by
  intro S hS
  have key := silentSound h ht hq ascii
  unfold run at h
  split at h
  · cases h
  rename_i out₀ ho
  simp only [Bool.and_eq_true] at h
  obtain ⟨ha, hsafe⟩ := h
  simp only [agrees, Bool.and_eq_true, decide_eq_true_eq, List.all_eq_true, List.mem_range] at ha
  simp only [safe, Bool.and_eq_true] at hsafe
  obtain ⟨⟨⟨⟨h1, h2⟩, h3⟩, h4⟩, h5⟩ := hsafe
  have hobj := objects_sound h1 ht
  have hprog := program_sound h2
  obtain ⟨s, hr⟩ := ran_iff.1 ho
  obtain ⟨out, h'⟩ := (same_success_partial (F := P.env.facts) (.refl _) source_fair hS hobj hprog fun s' out' h' => by
    have hsame := hr.toPrepared.sameFacts h' source_fair source_fair hobj hprog
    intro f hl z hz
    rw [← seen_same hsame] at hz ⊢
    obtain ⟨k1, k2⟩ := uncalled_sound h4 h3 f ((lookedAt_same hsame).2 hl) z hz
    exact ⟨k1, fun g hg => k2 g ((lookedAt_same hsame).2 hg)⟩).1 ⟨_, ho⟩
  have hsame := same_inputs_partial (.refl _) ho h' source_fair hS hobj hprog (fun f _ _ => (noCallback_sound h5 fun f => by
      have := covers_sound h3 f
      exact ⟨fun z hz => this.1 z (.inl hz), fun z hz => this.2 z (.inl hz)⟩).settled f)
    fun f _ => (noCallback_sound h5 fun f => seen_covered h3 f).settled f
  refine ⟨out, h', fun foreign declared hf hp f C hfC arg o hy code hcode => ?_⟩
  simp only [agreed, List.all_eq_true, Bool.and_eq_true, List.contains_eq_mem, decide_eq_true_eq, bne_iff_ne, ne_eq] at hd
  obtain ⟨⟨⟨⟨d1, d2⟩, d3⟩, d4⟩, d5⟩ := hd _ hfC
  obtain ⟨⟨⟨k1, k2⟩, -⟩, -⟩ := ha.2 _ d3
  have hcodes : out.facts.codes (P.env.funcObj f) = some C := by rw [← hsame.facts.codes, k1, d4]
  obtain ⟨c, hc, rfl⟩ := ((exported_codes h' hS hobj hprog).1 f d2 C).1 hcodes
  have hmm : ∀ text, (f, text) ∉ out.mismatches := fun text hm => by
    have := hsame.mismatches.mem_iff.2 hm
    rw [ha.1.1.2] at this
    exact d5 _ this rfl
  rcases key S hS out h' foreign declared hf hp f d1 c hc hmm arg o hy code hcode with h | h | ⟨h, h''⟩
  · exact .inl h
  · exact .inr (.inl h)
  · refine .inr (.inr ⟨?_, h''⟩)
    obtain ⟨p, hp⟩ := Option.ne_none_iff_exists'.1 h
    have hctor : out.facts.ctor (P.env.funcObj f) = some p.position := ((exported_constructors h' hS hobj).1 f d2 _).2 ⟨c, p, hc, hp, rfl⟩
    rw [← k2, hsame.facts.ctor, hctor]
    simp

end Serum.Check
