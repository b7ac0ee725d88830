import Verif.Frame
import Verif.Props.RunExample

/-!
# C62 — what the source cannot come across does not matter

Facts of other packages about functions and types which the analysed source does not come across have no influence on a run.
-/

namespace Serum.Props.Imports
open ImportSpec

variable {P : Package} {S : Schedule} {strict : Bool} {F : Facts}

set_option smartUnfolding false in
private theorem e_funcs (x y : Facts) : findErrorReturningFunctions (P.at_ x) = findErrorReturningFunctions (P.at_ y) := rfl
set_option smartUnfolding false in
private theorem e_claims (x y : Facts) : findClaimedErrorCodes (P.at_ x) = findClaimedErrorCodes (P.at_ y) := rfl

private theorem run_at (P : Package) (x : Facts) (S : Schedule) (strict : Bool) : runVerify (P.withImports x) S strict = (do
    let (facts, tags) ← findAndTagErrorTypes (P.at_ x) P.decls P.types P.depth P.specs x
    let (ifaces, ifaceDiags) ← Interfaces.find (P.at_ facts) (P.ifaceInfo S) P.ifaces.length S.ifaceNames P.ifaces
    let facts := Interfaces.exportFacts (P.ifaceInfo S) (S.ifaceExport ifaces) facts
    let (funcs, signatures) ← findErrorReturningFunctions (P.at_ facts) (S.functions P.collected)
    let (claims, claimDiags) := findClaimedErrorCodes (P.at_ facts) P.decls strict funcs
    let facts := exportErrorConstructorFacts P.start (S.ctorExport claims) facts
    let order := S.claims claims
    let depth := (P.functions facts).length + 1
    let (found, st) ← Search.findAll (P.plan facts) depth (order.map Prod.fst) Search.start
    let facts' := exportErrorCodeFacts P.start (S.codesExport claims) facts
    let (reports, st) ← Conv.runSteps (P.at_ facts') S.conv (P.plan facts') (depth + (P.functions facts').length)
      (Conv.steps (P.at_ facts') P.conv P.top) st
    pure ⟨facts', tags, ifaceDiags, signatures, claimDiags, st.diags, mismatches S.claimMatch order found, reports⟩) := rfl

theorem functions_like {a b : Facts} (h : Like P a b) : P.functions b = P.functions a := by
  unfold Package.functions
  rw [Analyse.plan_like h]

/-- **C62.** If the facts imported differ only about objects which the source does not come across, a run ends in the same way: it stops
with the same panic, or reports the same, and records the same facts. -/
theorem unmet_imports (hF : ∀ o, Meets P o → SameAt P.env.facts F o) :
    match runVerify P S strict with
    | .error e => runVerify (P.withImports F) S strict = .error e
    | .ok out => ∃ facts, runVerify (P.withImports F) S strict = .ok { out with facts := facts } ∧
        ∀ o, Recorded P.env.facts F out.facts facts o := by
  have hl : Like P P.env.facts F := hF
  have e0 : runVerify P S strict = runVerify (P.withImports P.env.facts) S strict := rfl
  rw [e0, run_at, run_at]
  have htag := tag_like hl P.decls P.types P.depth P.specs P.env.facts F (Over.refl (a := P.env.facts) (b := F))
  revert htag
  cases findAndTagErrorTypes (P.at_ P.env.facts) P.decls P.types P.depth P.specs P.env.facts with
  | error e =>
    cases findAndTagErrorTypes (P.at_ F) P.decls P.types P.depth P.specs F with
    | error e' => intro h; rw [show e' = e from h]; rfl
    | ok r => intro h; exact h.elim
  | ok r =>
    cases findAndTagErrorTypes (P.at_ F) P.decls P.types P.depth P.specs F with
    | error e' => intro h; exact h.elim
    | ok r' =>
      obtain ⟨a, tags⟩ := r
      obtain ⟨b, tags'⟩ := r'
      rintro ⟨ho, rfl : tags' = tags⟩
      replace ho : Over P.env.facts F a b := ho
      dsimp only [bind, Except.bind]
      rw [Interfaces.find_like (ho.like hl)]
      cases Interfaces.find (P.at_ a) (P.ifaceInfo S) P.ifaces.length S.ifaceNames P.ifaces with
      | error e => rfl
      | ok r =>
        obtain ⟨ifaces, ifaceDiags⟩ := r
        have ho2 := Interfaces.exportFacts_over (P.ifaceInfo S) (S.ifaceExport ifaces) ho
        dsimp only
        revert ho2
        generalize Interfaces.exportFacts (P.ifaceInfo S) (S.ifaceExport ifaces) a = a2
        generalize Interfaces.exportFacts (P.ifaceInfo S) (S.ifaceExport ifaces) b = b2
        intro ho2
        rw [e_funcs b2 a2]
        cases findErrorReturningFunctions (P.at_ a2) (S.functions P.collected) with
        | error e => rfl
        | ok r =>
          obtain ⟨funcs, signatures⟩ := r
          dsimp only
          rw [e_claims b2 a2]
          obtain ⟨claims, claimDiags⟩ := findClaimedErrorCodes (P.at_ a2) P.decls strict funcs
          dsimp only
          have ho3 := exportCtors_over P.start (S.ctorExport claims) ho2
          revert ho3
          generalize exportErrorConstructorFacts P.start (S.ctorExport claims) a2 = a3
          generalize exportErrorConstructorFacts P.start (S.ctorExport claims) b2 = b3
          intro ho3
          have hl3 := ho3.like hl
          rw [functions_like hl3, Analyse.plan_like hl3]
          cases Search.findAll (P.plan a3) ((P.functions a3).length + 1) ((S.claims claims).map Prod.fst) Search.start with
          | error e => rfl
          | ok r =>
            obtain ⟨found, st⟩ := r
            dsimp only
            have ho4 := exportCodes_over P.start (S.codesExport claims) ho3
            revert ho4
            generalize exportErrorCodeFacts P.start (S.codesExport claims) a3 = a4
            generalize exportErrorCodeFacts P.start (S.codesExport claims) b3 = b4
            intro ho4
            have hl4 := ho4.like hl
            obtain ⟨hs, hc⟩ := Conv.steps_like hl4
            rw [functions_like hl4, Analyse.plan_like hl4, hs, Conv.runSteps_like hl4 _ _ _ _ hc]
            cases Conv.runSteps (P.at_ a4) S.conv (P.plan a4) ((P.functions a3).length + 1 + (P.functions a4).length)
              (Conv.steps (P.at_ a4) P.conv P.top) st with
            | error e => rfl
            | ok r =>
              obtain ⟨reports, st⟩ := r
              exact ⟨b4, rfl, ho4⟩

end Serum.Props.Imports
