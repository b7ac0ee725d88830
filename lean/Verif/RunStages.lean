import Verif.Run
import Verif.Props.Claims
import Verif.Props.Interfaces
import Verif.Props.Conversions
import Verif.Props.Bodies

/-! # The stages of a run -/

namespace Serum

/-- The iteration orders are permutations. -/
structure Schedule.Fair (S : Schedule) : Prop where
  functions : ∀ l, (S.functions l).Perm l
  ifaceNames : Props.Interfaces.Enumerates S.ifaceNames
  tables : ∀ {α : Type} (t : Table α), (S.tables t).Perm t
  ifaceMatch : Props.Reports.AllOrders S.ifaceMatch
  ifaceExport : ∀ t, (S.ifaceExport t).Perm t
  ctorExport : ∀ l, (S.ctorExport l).Perm l
  claims : ∀ l, (S.claims l).Perm l
  codesExport : ∀ l, (S.codesExport l).Perm l
  claimMatch : ∀ f, Props.Reports.AllOrders (S.claimMatch f)
  conv : S.conv.Fair

/-- The intermediate results of a run. -/
structure Stages where
  /-- facts after error types have been tagged -/
  tagged : Facts
  ifaces : Table ErrorIface
  /-- facts after interfaces have been collected -/
  collected : Facts
  /-- functions returning errors -/
  funcs : List FnId
  claims : List (FnId × FuncCodes)
  /-- facts with the error constructors: those known while functions are compared with their declarations -/
  facts : Facts
  found : List (FnId × CodeSet)
  searched : Search FnId Diag
  final : Search FnId Diag

/-- The declarations of the package have been read, with these intermediate results, and facts `out.facts` to be exported: what happens
before and beside looking at function bodies. -/
structure Prepared (P : Package) (S : Schedule) (strict : Bool) (s : Stages) (out : Outcome) : Prop where
  tag : findAndTagErrorTypes P.start P.decls P.types P.depth P.specs P.env.facts = .ok (s.tagged, out.tags)
  find : Interfaces.find (P.at_ s.tagged) (P.ifaceInfo S) P.ifaces.length S.ifaceNames P.ifaces = .ok (s.ifaces, out.ifaces)
  collected : s.collected = Interfaces.exportFacts (P.ifaceInfo S) (S.ifaceExport s.ifaces) s.tagged
  funcs : findErrorReturningFunctions (P.at_ s.collected) (S.functions P.collected) = .ok (s.funcs, out.signatures)
  claims : findClaimedErrorCodes (P.at_ s.collected) P.decls strict s.funcs = (s.claims, out.claims)
  facts : s.facts = exportErrorConstructorFacts P.start (S.ctorExport s.claims) s.collected
  exported : out.facts = exportErrorCodeFacts P.start (S.codesExport s.claims) s.facts

/-- The run has these intermediate results. -/
structure Ran (P : Package) (S : Schedule) (strict : Bool) (s : Stages) (out : Outcome) : Prop extends Prepared P S strict s out where
  search : Search.findAll (P.plan s.facts) ((P.functions s.facts).length + 1) ((S.claims s.claims).map Prod.fst) Search.start =
    .ok (s.found, s.searched)
  conv : Conv.runSteps (P.at_ out.facts) S.conv (P.plan out.facts)
    ((P.functions s.facts).length + 1 + (P.functions out.facts).length)
    (Conv.steps (P.at_ out.facts) P.conv P.top) s.searched = .ok (out.conversions, s.final)
  bodies : out.bodies = s.final.diags
  mismatches : out.mismatches = Serum.mismatches S.claimMatch (S.claims s.claims) s.found

theorem ran_iff {P : Package} {S : Schedule} {strict : Bool} {out : Outcome} :
    runVerify P S strict = .ok out ↔ ∃ s, Ran P S strict s out := by
  constructor
  · intro h
    simp only [runVerify, bind, Except.bind, pure, Except.pure] at h
    split at h
    · cases h
    rename_i r1 h1
    obtain ⟨tagged, tags⟩ := r1
    simp only at h
    split at h
    · cases h
    rename_i r2 h2
    obtain ⟨ifaces, ifaceDiags⟩ := r2
    simp only at h
    split at h
    · cases h
    rename_i r3 h3
    obtain ⟨funcs, signatures⟩ := r3
    simp only at h
    split at h
    · cases h
    rename_i r4 h4
    obtain ⟨found, st⟩ := r4
    simp only at h
    split at h
    · cases h
    rename_i r5 h5
    obtain ⟨reports, st'⟩ := r5
    cases h
    exact ⟨⟨tagged, ifaces, _, funcs, _, _, found, st, st'⟩, ⟨h1, h2, rfl, h3, rfl, rfl, rfl⟩, h4, h5, rfl, rfl⟩
  · rintro ⟨s, h⟩
    obtain ⟨facts, tags, ifaces, signatures, claims, bodies, mism, convs⟩ := out
    have h6 := h.collected; have h7 := h.facts; have h8 := h.exported; have h9 := h.bodies; have h10 := h.mismatches
    simp only at h8 h9 h10
    have h4 := h.search; have h5 := h.conv; have h3 := h.funcs; have hc := h.claims
    simp only at h5 hc
    subst h8 h9 h10
    rw [h6] at hc h3 h7
    rw [h7] at h4 h5
    simp only [runVerify, bind, Except.bind, pure, Except.pure, h.tag, h.find, h3, hc, h4, h5]
    rw [h7]

end Serum
