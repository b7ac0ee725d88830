import Verif.Props.RunReports
import Verif.Props.RunCrash
import Verif.Props.ReturnScope
import Verif.Props.RunExample

/-!
# C40 — reports about returned variables, for whole runs
-/

namespace Serum.Props.Run
open Serum RunSpec Flow

variable {P : Package} {S : Schedule} {strict : Bool} {out : Outcome}

/-- In a run that ends, no body that is looked at makes the analyzer panic.  (Unlike `run_succeeds_iff` without hypothesis on
function literals.) -/
theorem looked_calm (h : runVerify P S strict = .ok out) (hS : S.Fair) (ho : Objects P) (hp : Interfaces.Program P.ifaces) {f : FnId}
    (hl : LookedAt P out.facts f) : (seen P out.facts f).panics = false := by
  obtain ⟨s, h⟩ := ran_iff.1 h
  by_cases ha : s.searched.scc.Vis f
  · have h0 : ¬ (Search.start : Search FnId Diag).scc.Vis f := by simp [Search.start, Scc.start, Scc.Vis]
    rw [← h.seen_eq hS ho hp]
    simp only [Search.mixed, ha, if_true]
    exact (Search.findAll_calm _ _ _ _ h.search f ha).resolve_left h0
  · have hc := h.conv
    rw [(Conv.runSteps_congr _ _ Search.mixed_agree).1, h.seen_eq hS ho hp] at hc
    obtain ⟨-, -, l, hc⟩ := (Conv.runSteps_iff hS.conv).1 ⟨_, hc⟩
    exact (Search.findAll_calm _ _ _ _ hc f ((h.vis_final hS ho hp f).2 hl)).resolve_left ha

/-- What can become the returned error does not depend on the facts. -/
theorem flows_at {facts : Facts} {f : FnId} {body : List Node} {e : Node} (h : Flows (P.at_ facts) f body e) : Flows P.env f body e := by
  induction h with
  | result h => exact .result h
  | assigned _ h2 h3 h4 ih => exact .assigned ih h2 h3 h4
  | asserted _ h2 h3 h4 h5 ih => exact .asserted ih h2 h3 h4 h5

/-- **C40**, for a run: in every function that is looked at, a parameter, receiver, global, variable of an enclosing function or
unresolved name that is returned — directly, by address or as a selected field — is reported. -/
theorem returned_outside_reported (h : runVerify P S strict = .ok out) (hS : S.Fair) (ho : Objects P) (hp : Interfaces.Program P.ifaces)
    {f : FnId} (hl : LookedAt P out.facts f) {body : List Node} (hbody : (P.env.func f).body = some body)
    {id : NodeId} {results : List Node} (hr : Returns P.env body id results) {e : Node} (he : ResultOf P.env f results e)
    {i : Ident} (hi : RefersTo P.env e i) (hout : ¬ Inside P.env (P.env.func f) i) : ⟨i.id, .errorOutOfScope⟩ ∈ reportedIn out f := by
  have hc := looked_calm h hS ho hp hl
  rw [(bodies_once h hS ho hp f).1 hl]
  rw [seen_eq_plan] at hc ⊢
  exact ReturnScope.returned_reported (env := P.at_ (factsFor P out.facts f)) hbody hc hr he hi hout

/-- **C40**, for a run: every such report is about an identifier whose value can become the error returned by the function, and that is
declared outside the function's results and body, or is a parameter of a function literal in the body. -/
theorem outside_report_justified (h : runVerify P S strict = .ok out) (hS : S.Fair) (ho : Objects P) (hp : Interfaces.Program P.ifaces)
    {f : FnId} {n : NodeId} (hn : ⟨n, .errorOutOfScope⟩ ∈ reportedIn out f) :
    LookedAt P out.facts f ∧ ∃ body e i, (P.env.func f).body = some body ∧ Flows P.env f body e ∧ RefersTo P.env e i ∧ i.id = n ∧
      (¬ Inside P.env (P.env.func f) i ∨ ∃ o, i.obj = some o ∧ LitParam body o) := by
  obtain ⟨b1, b2⟩ := bodies_once h hS ho hp f
  by_cases hl : LookedAt P out.facts f
  · rw [b1 hl, seen_eq_plan] at hn
    obtain ⟨body, e, i, h1, h2, h3, h4, h5⟩ := ReturnScope.report_justified hn
    exact ⟨hl, body, e, i, h1, flows_at h2, h3, h4, h5⟩
  · rw [b2 hl] at hn; cases hn

/-! ## Witness -/

/-- `func F(p error) error { err := p; if … { return err }; return p }`; the parameter `p` is object 6. -/
def bodyParam : List Node :=
  [.assign 1 [.ident ⟨2, b!"err", some 0⟩] [.ident ⟨32, b!"p", some 6⟩],
   .ret 33 [.ident ⟨34, b!"err", some 0⟩], .ret 35 [.ident ⟨36, b!"p", some 6⟩]]

/-- The example package with this `F`. -/
def pkgParam : Package :=
  { pkg with env := { pkgEnv with
      objects := pkgEnv.objects ++ [⟨.var, 5, .other⟩]
      funcs := pkgEnv.funcs.set 0 ⟨100, some ⟨101, b!"F", none⟩, ⟨[⟨[⟨37, b!"p", some 6⟩], 38⟩], some [⟨[], 116⟩], 10⟩,
        some bodyParam, 20, 100⟩ } }

theorem pkgParam_objects : Objects pkgParam :=
  ⟨pkg_objects.funcs, pkg_objects.distinct, pkg_objects.methods, pkg_objects.apart, pkg_objects.imported, pkg_objects.importedMethods,
    pkg_objects.interfaces, pkg_objects.importedInterfaces, pkg_objects.importedTables⟩

/-- Both uses of the parameter are reported, `err` is not; the theorems above apply. -/
example : ∃ out, runVerify pkgParam schedule false = .ok out ∧
    reportedIn out 0 = [⟨32, .errorOutOfScope⟩, ⟨36, .errorOutOfScope⟩] ∧
    ⟨36, .errorOutOfScope⟩ ∈ reportedIn out 0 ∧
    ∃ body e i, (pkgParam.env.func 0).body = some body ∧ Flows pkgParam.env 0 body e ∧ RefersTo pkgParam.env e i ∧ i.id = 32 ∧
      (¬ Inside pkgParam.env (pkgParam.env.func 0) i ∨ ∃ o, i.obj = some o ∧ LitParam body o) := by
  have hrun : ∃ out, runVerify pkgParam schedule false = .ok out ∧ reportedIn out 0 = [⟨32, .errorOutOfScope⟩, ⟨36, .errorOutOfScope⟩] :=
    ⟨_, rfl, by decide⟩
  obtain ⟨out, h, hr⟩ := hrun
  have hl := (outside_report_justified h schedule_fair pkgParam_objects pkg_program (f := 0) (n := 32) (by rw [hr]; decide)).1
  refine ⟨out, h, hr, ?_, (outside_report_justified h schedule_fair pkgParam_objects pkg_program (by rw [hr]; decide)).2⟩
  refine returned_outside_reported h schedule_fair pkgParam_objects pkg_program hl (body := bodyParam) rfl (id := 35)
    (results := [.ident ⟨36, b!"p", some 6⟩]) ⟨?_, ?_⟩ (.inl rfl) (i := ⟨36, b!"p", some 6⟩) (.inl rfl) ?_
  · exact (mem_inspectList _ _ _).1 (by simp [bodyParam, Node.inspectList, Node.inspect, ofFunction])
  · intro a ha
    have : (getReturnStmtAnnotations (pkgParam.env.comments 35)).1 = none := rfl
    rw [this] at ha; cases ha
  · rintro (h | ⟨o, ho, h1, -⟩)
    · revert h; decide
    · cases ho; revert h1; decide

end Serum.Props.Run
