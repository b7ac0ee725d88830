# Generates Testdata/Sound.lean from the output of quiet.lean.txt (`lake env lean ../scripts/conformance/quiet.lean.txt` in lean/).
import sys, textwrap
out = ["import Verif.Testdata.Extras", "import Verif.Props.ScopeCheck", "", "/-!", "# C24, for the packages in analysis/testdata", "",
       "Generated by `scripts/conformance/quiet.py`.  For every package: functions that call only each other, about whose bodies nothing is",
       "reported and which are in scope of C24 (decided by evaluating `Check.quiet`); and the codes declared for those of them that have a",
       "declaration and no mismatch.  They return only errors with these codes, whenever they are executed.", "-/", "",
       "set_option maxRecDepth 100000", "", "namespace Serum.Testdata", "open Serum", ""]
for line in open(sys.argv[1]):
    if not line.startswith("DATA"): continue
    _, ns, fs, ds = line.rstrip("\n").split("\t")
    wrap = lambda t: textwrap.fill(t, 140, subsequent_indent="    ", break_long_words=False, break_on_hyphens=False)
    out += [wrap(f"def {ns}.quietFunctions : List FnId := {fs}"), "", wrap(f"def {ns}.declaredCodes : List (FnId × CodeSet) := {ds}"), "",
            f"theorem {ns}.quiet : Check.quiet {ns}.package (Check.factsOf {ns}.result) {ns}.extra {ns}.expected {ns}.graph {ns}.quietFunctions = true := by",
            "  decide +kernel", "",
            f"theorem {ns}.returnsOnly : Check.ReturnsOnly {ns}.package {ns}.extra true {ns}.expected.ctors {ns}.declaredCodes :=",
            f"  Check.returnsOnly {ns}.checked {ns}.imports {ns}.quiet (fun _ _ => rfl) (fs := {ns}.quietFunctions) (by decide +kernel)", ""]
out.append(r"""/-- These executions exist: `ExportedFunc1` of multipackage/inner1 returns an error with the declared code. -/
theorem multipackageInner1.returnsHello :
    Runtime.Yields (multipackageInner1.package.at_ (RunSpec.during multipackageInner1.package (Check.factsOf multipackageInner1.result)))
      multipackageInner1.extra (.ret 0 []) ⟨⟨[], some ⟨b!"TheCode", 0⟩⟩, b!"hello-error"⟩ := by
  refine .returned (body := _) (id := 12583) (results := _) rfl ⟨_, .head _, .self⟩ (.inl rfl) (.pointerLiteral rfl rfl (by decide +kernel) ?_) ?_
  · intro fd hfd
    cases hfd
    refine .inr (.inl ⟨fun e he id k v h => ?_, _, rfl, .constant (by decide +kernel)⟩)
    rw [List.mem_singleton.1 he] at h
    exact Node.noConfusion h
  · intro a ha
    have : (getReturnStmtAnnotations (multipackageInner1.package.env.comments 12583)).1 = none := by decide +kernel
    have ha' : (getReturnStmtAnnotations (multipackageInner1.package.env.comments 12583)).1 = some a := ha
    rw [this] at ha'; cases ha'
""")
out.append("end Serum.Testdata")
open("/verif/lean/Verif/Testdata/Sound.lean", "w").write("\n".join(out) + "\n")
