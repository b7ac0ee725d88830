import Verif.RunStages

/-!
# Several packages

`main.go` hands the analyzer to `singlechecker.Main` (golang.org/x/tools/go/analysis, not part of the repository): it runs `runVerify`
on every package, the imported ones first, and passes on facts.  This is modelled by its contract: the documentation of
`analysis.Pass.ImportObjectFact`, and the fact inheritance of `analysis/internal/checker`.
-/

namespace Serum

/-- analyse.go:34-39 `FactTypes`: a fact that can be recorded for an object. -/
inductive Fact where
  /-- analyse.go:43-45 -/
  | codes (S : CodeSet)
  /-- analyse.go:52-54 -/
  | ctor (position : Nat)
  /-- tag_error_types.go:19-22 -/
  | errorType (et : ErrorType)
  /-- interfaces_collect.go:17-24 -/
  | interface (methods : List (GoString × CodeSet))

/-- The fact is recorded for the object. -/
def Facts.Has (F : Facts) (o : Object) : Fact → Prop
  | .codes S => F.codes o = some S
  | .ctor n => F.ctor o = some n
  | .errorType et => F.errorType o = some et
  | .interface ms => F.interface o = some ms

/-- Nothing is recorded. -/
def Facts.empty : Facts := ⟨fun _ => none, fun _ => none, fun _ => none, fun _ => none⟩

/-- A package that has been analysed: the package with the facts it was given (`pkg.env.facts`), the order in which maps were iterated,
and the outcome. -/
structure Member where
  pkg : Package
  schedule : Schedule
  out : Outcome

/-- main.go:9: all packages `ms` of a program have been analysed without a failure, in this order; `imports m q` means that `m` imports
`q` directly, `visible q o` that the object can be referred to by packages which import `q`.  A package is given the facts known in
the packages it imports: all facts about an object, or, if it is invisible, possibly none; nothing is added. -/
structure Session (strict : Bool) (imports : Member → Member → Prop) (visible : Member → Object → Prop) (ms : List Member) : Prop where
  fair : ∀ m ∈ ms, m.schedule.Fair
  ran : ∀ m ∈ ms, runVerify m.pkg m.schedule strict = .ok m.out
  order : ∀ pre m post, ms = pre ++ m :: post → ∀ q, imports m q → q ∈ pre
  known : ∀ m ∈ ms, ∀ o x, m.pkg.env.facts.Has o x → ∃ q, imports m q ∧ ∀ y, m.pkg.env.facts.Has o y ↔ q.out.facts.Has o y
  passed : ∀ m ∈ ms, ∀ q, imports m q → ∀ o x, visible q o → q.out.facts.Has o x → m.pkg.env.facts.Has o x

end Serum
