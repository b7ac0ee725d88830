import Verif.Props.Removal
import Verif.Props.RunCrash
import Verif.RearrangeLists

/-!
# C61, C22 — removing functions makes no run panic

If a package is analysed without a panic, so it is without functions that nobody uses.
-/

namespace Serum.Props.Removal
open RunSpec Run ConvSpec Conversions Conv

variable {P : Package} {S S' : Schedule} {strict strict' : Bool} {out out' : Outcome} {gone : FnId → Bool}

set_option smartUnfolding false in
private theorem steps_functions (env : Env) (info : Conv.Info) (fn : GoString → Option FnId) (codes : Object → Option CodeSet)
    (ctor : Object → Option Nat) (et : Object → Option ErrorType) (top : List TopDecl) :
    Conv.steps { env with functions := fn, facts := { env.facts with errorType := et, ctor := ctor, codes := codes } } info top = Conv.steps env info top := rfl

/-- The declarations of what remains can be read. -/
theorem collected_exists (h : Collected P S strict out) (hS : S.Fair) (hS' : S'.Fair) (hu : Unused P out gone) :
    ∃ out', Collected (P.without gone) S' strict' out' := by
  obtain ⟨s, h⟩ := h
  have ht := (tag_without hu P.env.facts).trans h.tag
  have h2 : ∀ d ∈ P.ifaces, ∀ im, .method im ∈ d.elements → im.type.results ≠ some [] := by
    have := h.find
    unfold Interfaces.find at this
    simp only [bind, Except.bind] at this
    split at this
    · cases this
    rename_i st hst
    exact collect_results hst
  obtain ⟨st, hst⟩ := Interfaces.declarations_end (env := (P.without gone).at_ s.tagged) (info := (P.without gone).ifaceInfo S') h2
  obtain ⟨is, ds, hi⟩ := Interfaces.search_ends (names := S'.ifaceNames) hst
  obtain ⟨⟨funcs, signatures⟩, hf⟩ := returning_ok
    (env := (P.without gone).at_ (Serum.Interfaces.exportFacts ((P.without gone).ifaceInfo S') (S'.ifaceExport is) s.tagged))
    (fs := S'.functions (P.without gone).collected) |>.2 fun f hf => by
      have hf := (hS'.functions _).mem_iff.1 hf
      rw [collected_without hu] at hf
      exact returning_ok.1 ⟨_, h.funcs⟩ f ((hS.functions _).mem_iff.2 (List.mem_filter.1 hf).1)
  let col := Serum.Interfaces.exportFacts ((P.without gone).ifaceInfo S') (S'.ifaceExport is) s.tagged
  let claims := findClaimedErrorCodes ((P.without gone).at_ col) P.decls strict' funcs
  let facts := exportErrorConstructorFacts (P.without gone).start (S'.ctorExport claims.1) col
  exact ⟨⟨exportErrorCodeFacts (P.without gone).start (S'.codesExport claims.1) facts, out.tags, ds, signatures, claims.2, [], [], []⟩,
    ⟨s.tagged, is, col, funcs, claims.1, facts, [], Search.start, Search.start⟩,
    ht, hi, rfl, hf, rfl, rfl, rfl⟩

/-- The facts of the first run, with the interfaces as listed after the second. -/
def mixed (out out' : Outcome) : Facts := { out.facts with interface := out'.facts.interface }

theorem mixed_same (hi : ∀ o, (out.facts.interface o = none ∧ out'.facts.interface o = none) ∨
    ∃ ms ms', out.facts.interface o = some ms ∧ out'.facts.interface o = some ms' ∧ ms.Perm ms') : SameFacts out.facts (mixed out out') :=
  ⟨rfl, rfl, rfl, hi⟩

theorem checks_without (hu : Unused P out gone) {st : Step} (h : st ∈ checks (P.without gone) out'.facts) : st ∈ checks P (mixed out out') := by
  unfold checks at h ⊢
  rw [at_without hu (mixed out out') out'.facts] at h
  have e := steps_functions (P.at_ (mixed out out')) P.conv (collectFunctions P.decls (P.without gone).funcs).1 out'.facts.codes
    out'.facts.ctor out'.facts.errorType (P.without gone).top
  have h : st ∈ Conv.steps (P.at_ (mixed out out')) P.conv (P.without gone).top := by
    rw [← e]; exact h
  rw [steps_flatMap] at h ⊢
  obtain ⟨d, hd, h⟩ := List.mem_flatMap.1 h
  exact List.mem_flatMap.2 ⟨d, (List.mem_filter.1 hd).1, h⟩

variable (h : Collected P S strict out) (h' : Collected (P.without gone) S' strict' out') (hS : S.Fair)
  (hS' : S'.Fair) (ho : Objects P) (hp : Interfaces.Program P.ifaces) (hu : Unused P out gone) (ha : Aside P out gone)

include h h' hS hS' ho hp hu ha in
theorem looked_without {f : FnId} (hl : LookedAt (P.without gone) out'.facts f) : LookedAt P out.facts f ∧ gone f = false := by
  have hseen : ∀ {f}, gone f = false → ∀ g, Reach (Calls (seen P out.facts)) f g → seen (P.without gone) out'.facts g = seen P out.facts g :=
    fun hk g hg => seen_without h h' hS hS' ho hp hu ha (seen_kept hu ha hg hk)
  obtain ⟨g, hg, hr⟩ := hl
  have hg : ((∃ c, Compared P g c) ∨ Asked (P.at_ out.facts) (checks P out.facts) g) ∧ gone g = false := by
    rcases hg with ⟨c, hc⟩ | hg
    · obtain ⟨hc, k⟩ := (compared_without hu).1 hc
      exact ⟨.inl ⟨c, hc⟩, k⟩
    · obtain ⟨c, hc, h1, h2, m, al, o, h3, h4, h5, h6⟩ := hg
      have h4 : MethodOf (P.at_ (mixed out out')) c.source m o := by
        rw [at_with hu (mixed out out') out'.facts]; exact methodOf_facts h4
      have h6 := (declares_without (facts := mixed out out') hu).1 h6
      refine ⟨.inr (asked_same (mixed_same (interfaces_without h h' hS hS' ho hp)).symm
        ⟨c, checks_without hu hc, h1, h2, m, al, o, h3, h4, ?_, h6⟩), methods_kept hu h6⟩
      show out.facts.codes o = none
      rw [← (codes_without h h' hS hS' ho hp hu).1 o ?_]
      · exact h5
      · intro k h7 h8 heq
        subst heq
        cases h4 with
        | direct j => exact ha.noMethods k h7 h8 _ _ j
        | pointer _ _ j => exact ha.noMethods k h7 h8 _ _ j
  have hr : Reach (Calls (seen P out.facts)) g f := (Edits.reach_local (hseen hg.2)).2 hr
  exact ⟨⟨g, hg.1, hr⟩, seen_kept hu ha hr hg.2⟩

/-- **C61/C22.** A package that is analysed without a panic is also analysed without a panic when functions that do not matter are
removed.

Partial: function literals are as the parser guarantees (`Run.ValuesUncalled`). -/
theorem success_partial (h : runVerify P S strict = .ok out) (hS : S.Fair)
    (hS' : S'.Fair) (ho : Objects P) (hp : Interfaces.Program P.ifaces) (hu : Unused P out gone) (ha : Aside P out gone)
    (hv : ValuesUncalled P out.facts) : ∃ out', runVerify (P.without gone) S' strict' = .ok out' := by
  have hc := collected h
  obtain ⟨out', hc'⟩ := collected_exists (S' := S') (strict' := strict') hc hS hS' hu
  have hlook := fun {f} => looked_without hc hc' hS hS' ho hp hu ha (f := f)
  have hseen := fun {f} => seen_without hc hc' hS hS' ho hp hu ha (f := f)
  have hsame := mixed_same (interfaces_without hc hc' hS hS' ho hp)
  obtain ⟨s, hr⟩ := ran_iff.1 h
  obtain ⟨k1, k2, k3⟩ := (run_succeeds_iff hr.toPrepared hS ho hp hv).1 ⟨_, h⟩
  obtain ⟨s', hp'⟩ := hc'
  have hv' : ValuesUncalled (P.without gone) out'.facts := by
    intro f hl z hz
    obtain ⟨hl, hg⟩ := hlook hl
    rw [hseen hg] at hz
    refine ⟨fun hz' => (hv f hl z hz).1 (mem_without.1 hz').1, fun g hl' => ?_⟩
    obtain ⟨hl', hg'⟩ := hlook hl'
    rw [hseen hg']
    exact (hv f hl z hz).2 g hl'
  refine (run_succeeds_iff hp' hS' (objects_without ho) hp hv').2 ⟨fun f hl => ?_, fun loc hm => ?_, ?_⟩
  · obtain ⟨hl, hg⟩ := hlook hl
    obtain ⟨j1, j2, j3⟩ := k1 f hl
    rw [hseen hg]
    refine ⟨j1, j2, fun g hl' hne => ?_⟩
    obtain ⟨hl', hg'⟩ := hlook hl'
    rw [hseen hg']
    exact j3 g hl' hne
  · exact noPanic_same hsame k2 loc (checks_without hu hm)
  · intro c hc h1 h2 m al hm
    obtain ⟨ob, k⟩ := methodsExist_same hsame k3 c (checks_without hu hc) h1 h2 m al hm
    refine ⟨ob, ?_⟩
    rw [at_without hu (mixed out out') out'.facts]; exact methodOf_facts k

/-! ## The example meets the hypotheses -/

theorem grown_values : ValuesUncalled grown grownOut.facts := by
  intro f _ z hz
  have : (seen grown grownOut.facts f).visits = [] := by
    unfold seen
    split
    · exact (grown_targets _ (.inr rfl) f).2
    · exact (grown_targets _ (.inl rfl) f).2
  rw [this] at hz
  cases hz

/-- `H` is removed from the package of `Props/Removal.lean`; the rest is analysed without a panic, in any order, strictly or not. -/
theorem shrunk_succeeds (hS : S.Fair) : ∃ out, runVerify (grown.without isH) S strict = .ok out :=
  success_partial grown_ran schedule_fair hS grown_objects pkg_program grown_unused grown_aside grown_values

end Serum.Props.Removal
