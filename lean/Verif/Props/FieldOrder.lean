import Verif.FieldOrder
import Verif.Props.RunCrash

/-!
# C20 — the order in which the fields of errors are looked at does not matter

The one order of iteration which is not in the `Schedule` but in the environment: that of the variables whose fields are looked at in a
body (analyse.go:845).  It never matters, whatever the package: only diagnostics about one function may come in another order.
-/

namespace Serum.Props.Run
open Serum RunSpec ConvSpec Conv Analyse

variable {P : Package} {S S' : Schedule} {strict : Bool} {out out' : Outcome}

theorem Ran.reordered {o : FnId → List ObjId → List ObjId} {ho : ∀ f v, (o f v).Perm v} {s : Stages} (h : Ran P S strict s out) (hS : S.Fair) :
    ∃ s' out', Ran (P.reordered o ho) S strict s' out' ∧ out' = { out with bodies := out'.bodies } ∧ out.bodies.Perm out'.bodies := by
  obtain ⟨⟨found, st⟩, h1, h2, h3⟩ := Search.findAll_same (P.plan_rearranged o ho s.facts) (Search.Same.rfl' _) h.search
  obtain ⟨⟨rs, fin⟩, h4, h5, h6⟩ := Conv.runSteps_same hS.conv (P.plan_rearranged o ho out.facts) h3 h.conv
  refine ⟨{ s with found := found, searched := st, final := fin }, { out with bodies := fin.diags }, ?_, rfl, ?_⟩
  · refine ⟨⟨?_, ?_, h.collected, ?_, ?_, ?_, ?_⟩, ?_, ?_, rfl, ?_⟩
    · have k := h.tag; rw [← tag_reordered P.start o ho] at k; exact k
    · have k := h.find; rw [← find_reordered _ o ho] at k; exact k
    · have k := h.funcs; rw [← returning_reordered _ o ho] at k; exact k
    · have k := h.claims; rw [← claimed_reordered _ o ho] at k; exact k
    · have k := h.facts; rw [← ctorFacts_reordered _ o ho] at k; exact k
    · have k := h.exported; rw [← codeFacts_reordered _ o ho] at k; exact k
    · rw [P.functions_reordered]; exact h1
    · rw [P.functions_reordered, P.functions_reordered]
      show _ = Except.ok (out.conversions, fin)
      have h5 : out.conversions = rs := h5
      rw [← runSteps_reordered _ o ho, ← steps_reordered _ o ho] at h4
      rw [h5]; exact h4
    · show out.mismatches = _
      rw [h.mismatches]; exact mismatches_same hS.claimMatch h2
  · show out.bodies.Perm fin.diags
    rw [h.bodies]; exact h6.diags

/-- **C20**, for the order in which the fields of errors are looked at, without restrictions: a run succeeds with one order exactly if it
succeeds with another, and then everything is the same, except that the diagnostics about function bodies may come in another order. -/
theorem field_order_independent (o : FnId → List ObjId → List ObjId) (ho : ∀ f v, (o f v).Perm v) (hS : S.Fair) :
    ((∃ out, runVerify P S strict = .ok out) ↔ ∃ out, runVerify (P.reordered o ho) S strict = .ok out) ∧
    ∀ out out', runVerify P S strict = .ok out → runVerify (P.reordered o ho) S strict = .ok out' →
      out' = { out with bodies := out'.bodies } ∧ out.bodies.Perm out'.bodies := by
  have key : ∀ (P : Package) (o : FnId → List ObjId → List ObjId) (ho : ∀ f v, (o f v).Perm v) (out : Outcome), runVerify P S strict = .ok out →
      ∃ out', runVerify (P.reordered o ho) S strict = .ok out' ∧ out' = { out with bodies := out'.bodies } ∧ out.bodies.Perm out'.bodies := by
    intro P o ho out h
    obtain ⟨s, h⟩ := ran_iff.1 h
    obtain ⟨s', out', h1, h2, h3⟩ := Ran.reordered (ho := ho) h hS
    exact ⟨out', ran_iff.2 ⟨s', h1⟩, h2, h3⟩
  refine ⟨⟨fun ⟨out, h⟩ => ?_, fun ⟨out, h⟩ => ?_⟩, fun out out' h h' => ?_⟩
  · obtain ⟨out', h', -⟩ := key P o ho out h; exact ⟨out', h'⟩
  · obtain ⟨out', h', -⟩ := key (P.reordered o ho) P.env.fieldOrder P.env.fieldOrder_perm out h; exact ⟨out', h'⟩
  · obtain ⟨out'', h1, h2, h3⟩ := key P o ho out h
    rw [h'] at h1; cases h1
    exact ⟨h2, h3⟩

/-- **C20**, for all orders together: two runs over the same package, with whatever orders the Go runtime picks, yield the same facts and
the same diagnostics.  Partial as `order_independent_partial`. -/
theorem all_orders_independent_partial (o : FnId → List ObjId → List ObjId) (hf : ∀ f v, (o f v).Perm v)
    (h : runVerify P S strict = .ok out) (h' : runVerify (P.reordered o hf) S' strict = .ok out') (hS : S.Fair) (hS' : S'.Fair)
    (ho : Objects P) (hp : Interfaces.Program P.ifaces)
    (hl₁ : ∀ f c, Compared P f c → CallGraph.Settled (P.plan (during P out.facts)) f)
    (hl : ∀ f, Asked (P.at_ out.facts) (checks P out.facts) f → CallGraph.Settled (seen P out.facts) f) :
    SameOutcome out out' := by
  obtain ⟨h1, h2⟩ := field_order_independent (P := P) (strict := strict) o hf hS'
  obtain ⟨mid, hm⟩ := h1.2 ⟨_, h'⟩
  obtain ⟨e, hb⟩ := h2 mid out' hm h'
  have hs := order_independent_partial h hm hS hS' ho hp hl₁ hl
  rw [e]
  exact ⟨hs.facts, hs.tags, hs.ifaces, hs.signatures, hs.claims, hs.bodies.trans hb, hs.mismatches, hs.conversions⟩

/-! ## Example

```go
func F() error {
	err := New("a-error")
	err.TheCode = names[0]
	other := err
	other.TheCode = names[1]
	return other
}
``` -/

def pkgTwo : Package :=
  { pkg with env := { pkgEnv with
    objects := pkgEnv.objects ++ [⟨.var, 31, .other⟩]
    funcs := pkgEnv.funcs.set 0 ⟨100, some ⟨101, b!"F", none⟩, ⟨[], some [⟨[], 116⟩], 10⟩,
      some [.assign 901 [.ident ⟨902, b!"err", some 0⟩] [.call 3 (.ident ⟨4, b!"New", some 2⟩) [.basicLit 5]],
        .assign 903 [.selector 904 (.ident ⟨905, b!"err", some 0⟩) ⟨906, b!"TheCode", none⟩] [.index 907 (.ident ⟨908, b!"names", some 4⟩) (.basicLit 909)],
        .assign 910 [.ident ⟨911, b!"other", some 6⟩] [.ident ⟨912, b!"err", some 0⟩],
        .assign 913 [.selector 914 (.ident ⟨915, b!"other", some 6⟩) ⟨916, b!"TheCode", none⟩] [.index 917 (.ident ⟨918, b!"names", some 4⟩) (.basicLit 919)],
        .ret 920 [.ident ⟨921, b!"other", some 6⟩]], 20, 100⟩ } }

set_option maxRecDepth 8000 in
/-- The two assignments are reported in either order. -/
theorem two_orders :
    (runVerify pkgTwo schedule false).map (fun r => (r.bodies, r.mismatches)) =
      .ok ([(0, ⟨917, .notConstant⟩), (0, ⟨907, .notConstant⟩)], [(0, b!"unused codes: [b-error c-error]")]) ∧
    (runVerify (pkgTwo.reordered (fun _ v => v.reverse) fun _ v => v.reverse_perm) schedule false).map (fun r => (r.bodies, r.mismatches)) =
      .ok ([(0, ⟨907, .notConstant⟩), (0, ⟨917, .notConstant⟩)], [(0, b!"unused codes: [b-error c-error]")]) := ⟨rfl, rfl⟩

end Serum.Props.Run
