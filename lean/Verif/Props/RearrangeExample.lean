import Verif.Props.Rearrange

/-!
# C53 — examples, and what does depend on the order

The package of `RunExample` with `F` moved behind everything else, all declarations in reverse order; and a package with two functions `_`,
of which only the last one is checked.
-/

namespace Serum.Props.Rearrange
open Serum RunSpec Serum.Rearrange Run

/-- `F` and its variable `err` now stand at 1010–1100. -/
def funcs' : List FuncDef :=
  [⟨100, some ⟨101, b!"F", none⟩, ⟨[], some [⟨[], 116⟩], 1010⟩, some Soundness.bodyF, 1020, 1100⟩] ++ pkgEnv.funcs.drop 1
def objects' : List ObjInfo := [⟨.var, 1030, .other⟩] ++ pkgEnv.objects.drop 1

theorem pkg_moves : pkg.env.Moves funcs' objects' where
  func := fun f => by
    match f with
    | 0 | 1 | 2 | 3 | 4 => exact ⟨rfl, rfl, rfl, rfl, rfl⟩
    | f + 5 => exact ⟨rfl, rfl, rfl, rfl, rfl⟩
  kind := fun o => by
    match o with
    | 0 | 1 | 2 | 3 | 4 | 5 => rfl
    | o + 6 => rfl
  decl := fun o => by
    match o with
    | 0 | 1 | 2 | 3 | 4 | 5 => rfl
    | o + 6 => rfl
  around := fun f o => by
    match f, o with
    | 0, 0 | 0, 1 | 0, 2 | 0, 3 | 0, 4 | 0, 5 | 1, 0 | 1, 1 | 1, 2 | 1, 3 | 1, 4 | 1, 5 | 2, 0 | 2, 1 | 2, 2 | 2, 3 | 2, 4 | 2, 5
    | 3, 0 | 3, 1 | 3, 2 | 3, 3 | 3, 4 | 3, 5 | 4, 0 | 4, 1 | 4, 2 | 4, 3 | 4, 4 | 4, 5 =>
      simp [FuncDef.Around, Env.func, Env.object, Env.moved, pkg, pkgEnv, funcs', objects', Tracking.plainEnv]
    | 0, o + 6 | 1, o + 6 | 2, o + 6 | 3, o + 6 | 4, o + 6 =>
      simp [FuncDef.Around, Env.func, Env.object, Env.moved, pkg, pkgEnv, funcs', objects', Tracking.plainEnv]
    | f + 5, 0 | f + 5, 1 | f + 5, 2 | f + 5, 3 | f + 5, 4 | f + 5, 5 =>
      simp [FuncDef.Around, Env.func, Env.object, Env.moved, pkg, pkgEnv, funcs', objects', Tracking.plainEnv]
    | f + 5, o + 6 => simp [FuncDef.Around, Env.func, Env.object, Env.moved, pkg, pkgEnv, funcs', objects', Tracking.plainEnv]
  count := rfl
  size := rfl

theorem pkg_rearranged : Rearranged pkg funcs' objects' pkg.funcs.reverse pkg.specs.reverse pkg.ifaces.reverse pkg.top.reverse where
  places := pkg_moves
  last := last_of_distinct (List.reverse_perm _) rfl pkg_objects.funcs (by decide)
  funcs := List.reverse_perm _
  specs := List.reverse_perm _
  ifaces := List.reverse_perm _
  top := List.reverse_perm _

theorem pkg_oneMethod : OneMethod pkg := by
  rintro err o - name - m m' ⟨h1, h2, h3, -⟩ ⟨h1', h2', h3', -⟩
  have : ∀ m ∈ pkg.funcs, pkg.decls.recv m ≠ none → ∀ m' ∈ pkg.funcs, pkg.decls.recv m' ≠ none → pkg.decls.name m = pkg.decls.name m' → m = m' := by
    decide
  exact this m h1 h2 m' h1' h2' (h3.trans h3'.symm)

/-- The rearranged package is analysed with the same results. -/
theorem pkg_rearranged_same : ∃ out', runVerify (pkg.rearranged funcs' objects' pkg.funcs.reverse pkg.specs.reverse pkg.ifaces.reverse pkg.top.reverse)
    schedule' false = .ok out' ∧ SameUpToOrder pkgOut out' := by
  obtain ⟨s, h⟩ := pkg_prepared
  obtain ⟨out', h'⟩ := (success_partial (S := schedule) (S' := schedule') (strict := false) pkg_rearranged schedule_fair schedule'_fair pkg_objects
    pkg_program pkg_types pkg_oneMethod pkg_declarations fun s out hp => by
      have hsame := hp.sameFacts h schedule_fair schedule_fair pkg_objects pkg_program
      intro f hl z hz
      rw [seen_same hsame] at hz ⊢
      exact ⟨(pkg_valuesUncalled f ((lookedAt_same hsame).1 hl) z hz).1,
        fun g hg => (pkg_valuesUncalled f ((lookedAt_same hsame).1 hl) z hz).2 g ((lookedAt_same hsame).1 hg)⟩).1 ⟨_, pkg_ran⟩
  exact ⟨out', h', rearranged_partial pkg_rearranged pkg_ran h' schedule_fair schedule'_fair pkg_objects pkg_program pkg_types pkg_oneMethod
    (fun f _ _ => pkg_noCycle.settled f) fun f _ => pkg_noCycle'.settled f⟩

/-! ## Two functions `_`

```go
// Errors:
//
//   - a-error -- sometimes
//   …
func _() error { … }          // F of the example

// Errors:
//
//   - a-error -- never
func _() error { return &Err{"c-error"} }
```
-/

def blanks : Package :=
  { pkg with
    decls := { pkg.decls with
      name := fun f => if f = 0 ∨ f = 2 then b!"_" else if f = 1 then b!"New" else if f = 3 then b!"Code" else b!"Get"
      doc := fun f => if f = 2 then some b!"Errors:\n\n  - a-error -- never\n" else pkg.decls.doc f } }

/-- The functions whose declarations are reported not to agree with their bodies. -/
def mismatched (P : Package) : Option (List FnId) :=
  match runVerify P schedule false with
  | .ok out => some (out.mismatches.map Prod.fst)
  | .error _ => none

/-- Which of the two is checked depends on their order: only the last one is.  So the order of functions with the same name matters
(`Rearranged.last`). -/
theorem blanks_order_matters : (blanks.withFunctions [3, 2, 1, 0, 4]).funcs.Perm blanks.funcs ∧
    mismatched blanks = some [2] ∧ mismatched (blanks.withFunctions [3, 2, 1, 0, 4]) = some [] ∧
    Kept blanks 2 ∧ ¬ Kept (blanks.withFunctions [3, 2, 1, 0, 4]) 2 := by
  refine ⟨by decide, rfl, rfl, ⟨[3, 0, 1], [4], rfl, .inr (by decide)⟩, ?_⟩
  rw [← kept_iff (by decide)]
  decide

end Serum.Props.Rearrange
