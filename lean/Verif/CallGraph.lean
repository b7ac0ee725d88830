import Verif.Scc
import Verif.CodeSet

/-!
# Searching functions for codes (`findErrorCodesInFunc` and its driver)

While the analyzer looks at the body of one function it computes a code set from constants, facts and
the results of analysing other functions, and never branches on a code set obtained from another
function.  What it does with one body is therefore described by a `Plan`: the sequence of set
operations, diagnostics, calls to other functions and panics, in program order.
`Verif/Analyse.lean` computes the plan of a function from its syntax tree, mirroring
`analyse.go:492-823` function by function; this file executes plans, mirroring `findErrorCodesInFunc`,
the recursion step of `findErrorCodesFromFunctionCall`, `findErrorCodesInLambdaAssignment`'s direct
visit, `unifyAnalysisResultForComponent` and the loop of `runVerify`.
-/

namespace Serum

/-- What the analyzer does while looking at a function body.  `N`: functions and function literals,
`D`: diagnostics. -/
inductive Plan (N D : Type) where
  /-- A known code set (constants, annotations, imported facts). -/
  | codes (s : CodeSet)
  /-- `pass.Report…`, yielding no codes. -/
  | report (d : D)
  /-- A Go panic. -/
  | panic (loc : String)
  /-- A call to `g`: analyse.go:712-719, guarded by `scc.HandleEdge`. -/
  | call (g : N)
  /-- analyse.go:760: `findErrorCodesInFunc` on a function literal, without `HandleEdge`. -/
  | visit (g : N)
  /-- `Union(a, b)`, `a` being computed first. -/
  | union (a b : Plan N D)
  /-- `Difference(a, s)`. -/
  | minus (a : Plan N D) (s : CodeSet)

namespace Plan
variable {N D : Type}

/-- No operation: `Set()` / `nil`. -/
def none : Plan N D := .codes []

/-- `result = Union(result, …)` over a list, in order. -/
def unions : List (Plan N D) → Plan N D
  | [] => .codes []
  | p :: ps => .union p (unions ps)

/-- The functions called or visited, in order. -/
def targets : Plan N D → List N
  | .codes _ | .report _ | .panic _ => []
  | .call g | .visit g => [g]
  | .union a b => a.targets ++ b.targets
  | .minus a _ => a.targets

/-- The literals visited directly. -/
def visits : Plan N D → List N
  | .codes _ | .report _ | .panic _ | .call _ => []
  | .visit g => [g]
  | .union a b => a.visits ++ b.visits
  | .minus a _ => a.visits

/-- The diagnostics emitted, in order. -/
def reports : Plan N D → List D
  | .codes _ | .panic _ | .call _ | .visit _ => []
  | .report d => [d]
  | .union a b => a.reports ++ b.reports
  | .minus a _ => a.reports

/-- Does the plan contain a panic? -/
def panics : Plan N D → Bool
  | .codes _ | .report _ | .call _ | .visit _ => false
  | .panic _ => true
  | .union a b => a.panics || b.panics
  | .minus a _ => a.panics

end Plan

/-- State of the search: `context.scc`, `funcLookup.foundCodes` (function_lookup.go:19) and the
emitted diagnostics, each with the function being looked at.  `comps` is not in the Go code: it
records the components returned by `EndVisit`. -/
structure Search (N D : Type) where
  scc : Scc N
  found : N → Option CodeSet
  diags : List (N × D)
  comps : List (List N)

namespace Search
variable {N D : Type} [DecidableEq N]

/-- `scc.StartSCC()` and `newFuncLookup()`. -/
def start : Search N D := ⟨Scc.start, fun _ => none, [], []⟩

/-- `lookup.foundCodes[f] = s`. -/
def setFound (st : Search N D) (f : N) (s : CodeSet) : Search N D :=
  { st with found := fun g => if g = f then some s else st.found g }

/-- analyse.go:525-544 `unifyAnalysisResultForComponent`. -/
def unify (st : Search N D) (component : List N) : CodeSet × Search N D :=
  let result := component.foldl (fun r f => CodeSet.union r ((st.found f).getD [])) []
  (result, component.foldl (fun st f => st.setFound f result) st)

/-- Executing a plan while looking at function `cur`; `recurse` is `findErrorCodesInFunc`. -/
def exec (recurse : N → Search N D → Except Stop (CodeSet × Search N D)) (cur : N) :
    Plan N D → Search N D → Except Stop (CodeSet × Search N D)
  | .codes s, st => .ok (s, st)
  | .report d, st => .ok ([], { st with diags := st.diags ++ [(cur, d)] })
  | .panic loc, _ => .error (.panic loc)
  -- analyse.go:711-719
  | .call g, st => do
    let (shouldRecurse, scc) ← st.scc.handleEdge cur g
    let st := { st with scc := scc }
    if shouldRecurse then
      let (newCodes, st) ← recurse g st
      let scc ← st.scc.afterRecurse cur g
      pure (newCodes, { st with scc := scc })
    else
      pure ((st.found g).getD [], st)
  -- analyse.go:760
  | .visit g, st => recurse g st
  | .union a b, st => do
    let (x, st) ← exec recurse cur a st
    let (y, st) ← exec recurse cur b st
    pure (CodeSet.union x y, st)
  | .minus a s, st => do
    let (x, st) ← exec recurse cur a st
    pure (CodeSet.diff x s, st)

/-- analyse.go:466-490 `findErrorCodesInFunc`; `fuel` bounds the recursion depth. -/
def findInFunc (plan : N → Plan N D) : Nat → N → Search N D → Except Stop (CodeSet × Search N D)
  | 0, _, _ => .error .outOfFuel
  | fuel + 1, f, st => do
    let scc ← st.scc.visit f
    let (result, st) ← exec (findInFunc plan fuel) f (plan f) { st with scc := scc }
    let st := st.setFound f result
    let (c, scc) ← st.scc.endVisit f
    let st := { st with scc := scc }
    match c with
    | none => pure (result, st)
    | some component =>
      pure (({ st with comps := st.comps ++ [component] } : Search N D).unify component)

/-- analyse.go:146-149 (and interfaces_verify.go:511-514): the cached codes of a function, or a
search from it. -/
def findCached (plan : N → Plan N D) (fuel : Nat) (f : N) (st : Search N D) :
    Except Stop (CodeSet × Search N D) :=
  match st.found f with
  | some s => .ok (s, st)
  | none => findInFunc plan fuel f st

/-- analyse.go:145-152: the loop over the functions with claims, in the order `fs` in which the Go
map is iterated; returns the codes each one is compared with. -/
def findAll (plan : N → Plan N D) (fuel : Nat) :
    List N → Search N D → Except Stop (List (N × CodeSet) × Search N D)
  | [], st => .ok ([], st)
  | f :: fs, st => do
    let (s, st) ← findCached plan fuel f st
    let (rs, st) ← findAll plan fuel fs st
    pure ((f, s) :: rs, st)

end Search
end Serum
