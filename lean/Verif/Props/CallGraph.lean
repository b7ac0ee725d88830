import Verif.CallGraphTop
import Verif.CallGraphLocalTop
import Verif.CallGraphOnce
import Verif.Props.Reports

/-!
# C17–C21, C37: codes of functions over the call graph

`Search.findAll plan fuel order Search.start` is the loop of `runVerify` over the functions with
claims, in iteration order `order`; `plan f` is what the analyzer does in the body of `f`
(`Verif/Analyse.lean` computes it from the syntax tree).

`Plan.visit g` is the way a function literal called through a local variable is analysed
(analyse.go:760): directly, without telling the component algorithm about the edge.  In every program
only derivable codes are found (`found_derivable`, `found_reachable`).  The codes of a function are
exact if no function reachable from it visits a literal that can call back to it (`Settled`), however
the rest of the program looks; this in particular covers all programs that only use ordinary calls.
Without that hypothesis C18 and C20 are false of the code: `order_matters` below.
-/

set_option linter.unusedSectionVars false

namespace Serum.Props.CallGraph
variable {N D : Type} [DecidableEq N]

/-- No literal called through a variable can call back to the function visiting it. -/
def NoLiteralCycle (plan : N → Plan N D) : Prop :=
  ∀ f, ∀ g ∈ (plan f).visits, ¬ Reach (Calls plan) g f

/-- No function reachable from `f` visits a literal that can call back to it. -/
def Settled (plan : N → Plan N D) (f : N) : Prop :=
  ∀ g, Reach (Calls plan) f g → ∀ z ∈ (plan g).visits, ¬ Reach (Calls plan) z g

omit [DecidableEq N] in
theorem NoLiteralCycle.settled {plan : N → Plan N D} (h : NoLiteralCycle plan) (f : N) : Settled plan f :=
  fun g _ => h g

omit [DecidableEq N] in
theorem Settled.reach {plan : N → Plan N D} {f g : N} (h : Settled plan f) (hr : Reach (Calls plan) f g) : Settled plan g :=
  fun g' hr' => h g' (hr.trans hr')

private theorem search {plan : N → Plan N D} {fuel : Nat} {order : List N} {results : List (N × CodeSet)} {st : Search N D}
    (h : Search.findAll plan fuel order Search.start = .ok (results, st)) :
    Search.InvG (Settled plan) plan [] st ∧ results.map Prod.fst = order ∧
      (∀ f S, (f, S) ∈ results → (∀ c ∈ S, CodesOf plan f c) ∧ (∀ c, (plan f).Yields (fun _ _ => False) c → c ∈ S) ∧
        (Settled plan f → ∀ c, CodesOf plan f c → c ∈ S)) ∧
      (∀ x, st.scc.Vis x ↔ ∃ f ∈ order, Reach (Calls plan) f x) := by
  have h1 := Search.findAll_specG (G := Settled plan) (fun x y hx hc => hx.reach (Reach.edge hc)) (fun f hf => hf f (.refl f))
    fuel order _ (Search.inv_startG (plan := plan))
  rw [h] at h1
  obtain ⟨h1, h2, h3, h4⟩ := h1
  exact ⟨h1, h2, h3, fun x => by rw [h4]; simp [Search.start, Scc.start, Scc.Vis]⟩

/-- **C19**, in every program: whatever code is found for a function is derivable, that is, in the least consistent
assignment.  So a code reported as missing from a declaration is never made up. -/
theorem found_derivable {plan : N → Plan N D} {fuel : Nat} {order : List N} {results : List (N × CodeSet)} {st : Search N D}
    (h : Search.findAll plan fuel order Search.start = .ok (results, st)) :
    (∀ f S, (f, S) ∈ results → ∀ c ∈ S, CodesOf plan f c) ∧ ∀ g S, st.found g = some S → ∀ c ∈ S, CodesOf plan g c :=
  ⟨fun f S hS => ((search h).2.2.1 f S hS).1, (search h).1.sound⟩

/-- In every program: the codes that come out of the body of a function without any call are found for it. -/
theorem own_found {plan : N → Plan N D} {fuel : Nat} {order : List N} {results : List (N × CodeSet)} {st : Search N D}
    (h : Search.findAll plan fuel order Search.start = .ok (results, st)) :
    (∀ f S, (f, S) ∈ results → ∀ c, (plan f).Yields (fun _ _ => False) c → c ∈ S) ∧
    ∀ g S, st.found g = some S → ∀ c, (plan g).Yields (fun _ _ => False) c → c ∈ S :=
  ⟨fun f S hS => ((search h).2.2.1 f S hS).2.1, (search h).1.own⟩

/-- In every program: exactly the functions reachable from the analysed ones have been looked at. -/
theorem found_iff_reached {plan : N → Plan N D} {fuel : Nat} {order : List N} {results : List (N × CodeSet)} {st : Search N D}
    (h : Search.findAll plan fuel order Search.start = .ok (results, st)) :
    results.map Prod.fst = order ∧ ∀ g, (∃ S, st.found g = some S) ↔ ∃ f ∈ order, Reach (Calls plan) f g := by
  obtain ⟨h1, h2, -, h4⟩ := search h
  refine ⟨h2, fun g => ?_⟩
  rw [← h4]
  exact ⟨fun ⟨S, hS⟩ => (h1.found_vis g S hS).1, fun hv => h1.has g hv (by simp)⟩

/-- All functions are in the finite list `U`. -/
def ClosedIn (plan : N → Plan N D) (U : List N) : Prop := ∀ f ∈ U, ∀ g, Calls plan f g → g ∈ U

/-- Programs using ordinary calls only, with no panicking body. -/
def Plain (plan : N → Plan N D) : Prop :=
  ∀ f, (plan f).visits = [] ∧ (plan f).panics = false

omit [DecidableEq N] in
theorem Plain.noLiteralCycle {plan : N → Plan N D} (h : Plain plan) : NoLiteralCycle plan := by
  intro f g hg; simp [(h f).1] at hg

/-- **C19**, also the basis of C17/C18.  When the loop ends, the codes each function is compared
with are exactly the codes of the least consistent assignment: derivable from own codes, callees'
codes minus what is removed at the return, and sharing within a recursion cycle; nothing else.

Partial: for functions that reach a literal calling back only `found_derivable` holds. -/
theorem codes_are_least_partial {plan : N → Plan N D} {fuel : Nat}
    {order : List N} {results : List (N × CodeSet)} {st : Search N D}
    (h : Search.findAll plan fuel order Search.start = .ok (results, st)) :
    results.map Prod.fst = order ∧
    ∀ f S, (f, S) ∈ results → Settled plan f → ∀ c, c ∈ S ↔ CodesOf plan f c := by
  obtain ⟨-, h2, h3, -⟩ := search h
  exact ⟨h2, fun f S hS hs c => ⟨(h3 f S hS).1 c, (h3 f S hS).2.2 hs c⟩⟩

/-- The assignment meant in `codes_are_least_partial` is consistent, and below every consistent one. -/
theorem codesOf_least_consistent (plan : N → Plan N D) :
    Consistent plan (CodesOf plan) ∧
    ∀ ρ, Consistent plan ρ → ∀ f c, CodesOf plan f c → ρ f c :=
  ⟨CodesOf.consistent, fun _ hρ _ _ h => h _ hρ⟩

/-- The cache agrees: every function reachable from the analysed ones (and no other) has been analysed, and its cached codes
are its codes. -/
theorem cache_is_exact_partial {plan : N → Plan N D} {fuel : Nat}
    {order : List N} {results : List (N × CodeSet)} {st : Search N D}
    (h : Search.findAll plan fuel order Search.start = .ok (results, st)) (g : N) :
    (∀ S, st.found g = some S → (∃ f ∈ order, Reach (Calls plan) f g) ∧
      (Settled plan g → ∀ c, c ∈ S ↔ CodesOf plan g c)) ∧
    ((∃ f ∈ order, Reach (Calls plan) f g) → ∃ S, st.found g = some S) :=
  ⟨fun S hS => ⟨((found_iff_reached h).2 g).1 ⟨S, hS⟩, fun hs c => (search h).1.codes hs hS c⟩, ((found_iff_reached h).2 g).2⟩

/-- **C21** for the search over functions: whatever the plans (recursive, with literals, …), a depth
of the number of functions suffices; the search ends. -/
theorem terminates {plan : N → Plan N D} {U : List N} (hU : ClosedIn plan U) {order : List N}
    (ho : ∀ f ∈ order, f ∈ U) :
    Search.findAll plan (U.length + 1) order Search.start ≠ .error .outOfFuel :=
  Search.findAll_fuelled hU (Nat.lt_succ_self _) order _ ho

/-- Programs using ordinary calls only are analysed to the end, without a panic. -/
theorem plain_ok_partial {plan : N → Plan N D} (hp : Plain plan) {U : List N} (hU : ClosedIn plan U)
    {order : List N} (ho : ∀ f ∈ order, f ∈ U) :
    ∃ results st, Search.findAll plan (U.length + 1) order Search.start = .ok (results, st) := by
  have h1 := Search.findAll_spec hp.noLiteralCycle (U.length + 1) order _
    (Search.inv_start (plan := plan))
  obtain ⟨⟨r, st⟩, h, _⟩ := Search.holds_ok h1 (terminates hU ho) (fun f => (hp f).1)
    (fun f => (hp f).2)
  exact ⟨r, st, h⟩

/-- The codes originating in a body itself: constants, facts and annotations. -/
def own : Plan N D → List GoString
  | .codes s => s
  | .report _ | .panic _ | .call _ | .visit _ => []
  | .union a b => own a ++ own b
  | .minus a _ => own a

/-- The plan removes no codes. -/
def NoRemoval : Plan N D → Prop
  | .codes _ | .report _ | .panic _ | .call _ | .visit _ => True
  | .union a b => NoRemoval a ∧ NoRemoval b
  | .minus a s => NoRemoval a ∧ s = []

omit [DecidableEq N] in
private theorem yields_only {ρ : N → GoString → Prop} {c : GoString} :
    ∀ (p : Plan N D), p.Yields ρ c → c ∈ own p ∨ ∃ g ∈ p.targets, ρ g c
  | .codes _, h => .inl h
  | .report _, h => h.elim
  | .panic _, h => h.elim
  | .call g, h => .inr ⟨g, by simp [Plan.targets], h⟩
  | .visit g, h => .inr ⟨g, by simp [Plan.targets], h⟩
  | .union a b, h => by
    rcases h with h | h
    · rcases yields_only a h with h | ⟨g, hg, h⟩
      · exact .inl (by simp [own, h])
      · exact .inr ⟨g, by simp [Plan.targets, hg], h⟩
    · rcases yields_only b h with h | ⟨g, hg, h⟩
      · exact .inl (by simp [own, h])
      · exact .inr ⟨g, by simp [Plan.targets, hg], h⟩
  | .minus a s, h => yields_only a h.1

omit [DecidableEq N] in
private theorem yields_all {ρ : N → GoString → Prop} {c : GoString} :
    ∀ (p : Plan N D), NoRemoval p → (c ∈ own p ∨ ∃ g ∈ p.targets, ρ g c) → p.Yields ρ c
  | .codes _, _, h => by simpa [own, Plan.targets, Plan.Yields] using h
  | .report _, _, h => by simp [own, Plan.targets] at h
  | .panic _, _, h => by simp [own, Plan.targets] at h
  | .call g, _, h => by simpa [own, Plan.targets, Plan.Yields] using h
  | .visit g, _, h => by simpa [own, Plan.targets, Plan.Yields] using h
  | .union a b, hn, h => by
    rcases h with h | ⟨g, hg, h⟩
    · rcases List.mem_append.1 (show c ∈ own a ++ own b from h) with h | h
      · exact .inl (yields_all a hn.1 (.inl h))
      · exact .inr (yields_all b hn.2 (.inl h))
    · rcases List.mem_append.1 (show g ∈ a.targets ++ b.targets from hg) with hg | hg
      · exact .inl (yields_all a hn.1 (.inr ⟨g, hg, h⟩))
      · exact .inr (yields_all b hn.2 (.inr ⟨g, hg, h⟩))
  | .minus a s, hn, h => ⟨yields_all a hn.1 h, by simp [hn.2]⟩

/-- **C17**, in every program: a code found for a function originates in some function reachable from it. -/
theorem found_reachable {plan : N → Plan N D} {fuel : Nat} {order : List N}
    {results : List (N × CodeSet)} {st : Search N D}
    (h : Search.findAll plan fuel order Search.start = .ok (results, st)) :
    ∀ f S, (f, S) ∈ results → ∀ c ∈ S, ∃ g, Reach (Calls plan) f g ∧ c ∈ own (plan g) := by
  intro f S hS c hc
  refine (found_derivable h).1 f S hS c hc (fun f c => ∃ g, Reach (Calls plan) f g ∧ c ∈ own (plan g)) ⟨?_, ?_⟩
  · intro f c hy
    rcases yields_only _ hy with h | ⟨g, hg, g', hr, h⟩
    · exact ⟨f, .refl f, h⟩
    · exact ⟨g', .step hg hr, h⟩
  · rintro f g c hm ⟨g', hr, h⟩
    exact ⟨g', hm.1.trans hr, h⟩

/-- **C17**.  Without remove annotations, the codes found for a function are exactly the codes
originating in some function reachable from it in the call graph. -/
theorem transitive_codes_partial {plan : N → Plan N D} {fuel : Nat} {order : List N}
    {results : List (N × CodeSet)} {st : Search N D}
    (h : Search.findAll plan fuel order Search.start = .ok (results, st)) :
    ∀ f S, (f, S) ∈ results → Settled plan f → (∀ g, Reach (Calls plan) f g → NoRemoval (plan g)) → ∀ c,
      c ∈ S ↔ ∃ g, Reach (Calls plan) f g ∧ c ∈ own (plan g) := by
  intro f S hS hs hn c
  refine ⟨found_reachable h f S hS c, ?_⟩
  rw [(codes_are_least_partial h).2 f S hS hs c]
  rintro ⟨g, hr, hc⟩
  clear hS hs
  induction hr with
  | refl a => exact CodesOf.consistent.1 a c (yields_all _ (hn a (.refl a)) (.inl hc))
  | @step a b _ e _ ih =>
    exact CodesOf.consistent.1 a c (yields_all _ (hn a (.refl a)) (.inr ⟨b, e, ih (fun g hr => hn g (.step e hr)) hc⟩))

/-- **C18**.  Functions on a common recursion cycle end with the same codes, namely everything that
comes out of the body of some function on the cycle. -/
theorem cycle_shares_codes_partial {plan : N → Plan N D} {fuel : Nat}
    {order : List N} {results : List (N × CodeSet)} {st : Search N D}
    (h : Search.findAll plan fuel order Search.start = .ok (results, st)) :
    (∀ f S, (f, S) ∈ results → Settled plan f → ∀ g T, st.found g = some T → Mutual (Calls plan) f g →
      ∀ c, c ∈ S ↔ c ∈ T) ∧
    (∀ f S, (f, S) ∈ results → Settled plan f → ∀ c,
      c ∈ S ↔ ∃ g, Mutual (Calls plan) f g ∧ (plan g).Yields (CodesOf plan) c) := by
  constructor
  · intro f S hS hs g T hT hm c
    rw [(codes_are_least_partial h).2 f S hS hs c, ((cache_is_exact_partial h g).1 T hT).2 (hs.reach hm.1) c]
    exact ⟨CodesOf.consistent.2 g f c hm.symm, CodesOf.consistent.2 f g c hm⟩
  · intro f S hS hs c
    rw [(codes_are_least_partial h).2 f S hS hs c]
    have hle : ∀ f c, (∃ g, Mutual (Calls plan) f g ∧ (plan g).Yields (CodesOf plan) c) →
        CodesOf plan f c := by
      rintro f c ⟨g, hm, hy⟩
      exact CodesOf.consistent.2 f g c hm (CodesOf.consistent.1 g c hy)
    refine ⟨fun hc => ?_, hle f c⟩
    refine hc (fun f c => ∃ g, Mutual (Calls plan) f g ∧ (plan g).Yields (CodesOf plan) c) ⟨?_, ?_⟩
    · intro f c hy
      exact ⟨f, ⟨.refl f, .refl f⟩, Plan.Yields.mono hle _ _ hy⟩
    · rintro f g c hm ⟨g', hm', hy⟩
      exact ⟨g', hm.trans hm', hy⟩

/-- The diagnostics attributed to the body of `f`, in the order of emission. -/
def diagnosticsOf (st : Search N D) (f : N) : List D :=
  (st.diags.filter (fun p => p.1 = f)).map Prod.snd

theorem diagsOf_eq (st : Search N D) (f : N) : st.diagsOf f = diagnosticsOf st f := by
  unfold Search.diagsOf diagnosticsOf
  induction st.diags with
  | nil => rfl
  | cons a l ih => by_cases ha : a.1 = f <;> simp [ha, ih]

/-- **C37**.  Each body is looked at once if its function is reachable from an analysed function, and
never otherwise: its diagnostics occur exactly once, however many callers it has.  (No assumption on function literals.) -/
theorem body_once {plan : N → Plan N D} {fuel : Nat}
    {order : List N} {results : List (N × CodeSet)} {st : Search N D}
    (h : Search.findAll plan fuel order Search.start = .ok (results, st)) (g : N) :
    ((∃ f ∈ order, Reach (Calls plan) f g) → diagnosticsOf st g = (plan g).reports) ∧
    ((¬ ∃ f ∈ order, Reach (Calls plan) f g) → diagnosticsOf st g = []) := by
  obtain ⟨h1, -⟩ := Search.findAll_looked fuel order _ _ Search.tidy_start h
  have h0 : ¬ (Search.start : Search N D).scc.Vis g := by simp [Search.start, Scc.start, Scc.Vis]
  rw [← h1.vis_iff, ← diagsOf_eq]
  exact ⟨fun hv => by rw [h1.diags_new g h0 hv]; rfl, fun hv => by rw [h1.diags_not g hv]; rfl⟩

/-- **C20**, partial.  For two iteration orders over the same functions: every function is compared
with the same codes and gets the same mismatch text (whatever the map iteration orders while the
text is built), and each body emits the same diagnostics.

Missing: functions from which a function literal called through a variable is reachable that calls back to the function
visiting it; there the claim is false, see `order_matters`. -/
theorem order_independent_partial {plan : N → Plan N D}
    {order₁ order₂ : List N} (hperm : order₁.Perm order₂) {fuel₁ fuel₂ : Nat}
    {res₁ res₂ : List (N × CodeSet)} {st₁ st₂ : Search N D}
    (h₁ : Search.findAll plan fuel₁ order₁ Search.start = .ok (res₁, st₁))
    (h₂ : Search.findAll plan fuel₂ order₂ Search.start = .ok (res₂, st₂)) :
    (∀ f S T, (f, S) ∈ res₁ → (f, T) ∈ res₂ → Settled plan f → (∀ c, c ∈ S ↔ c ∈ T) ∧
      ∀ claimed o o', Reports.AllOrders o → Reports.AllOrders o' →
        checkIfErrorCodesMatch o S claimed = checkIfErrorCodesMatch o' T claimed) ∧
    (res₁.map Prod.fst).Perm (res₂.map Prod.fst) ∧
    (∀ g, diagnosticsOf st₁ g = diagnosticsOf st₂ g) := by
  refine ⟨?_, ?_, ?_⟩
  · intro f S T hS hT hs
    have hst : ∀ c, c ∈ S ↔ c ∈ T := fun c => by
      rw [(codes_are_least_partial h₁).2 f S hS hs c, (codes_are_least_partial h₂).2 f T hT hs c]
    exact ⟨hst, fun claimed o o' ho ho' =>
      Reports.mismatch_deterministic o o' ho ho' S T claimed claimed hst (fun _ => Iff.rfl)⟩
  · rw [(codes_are_least_partial h₁).1, (codes_are_least_partial h₂).1]; exact hperm
  · intro g
    have hiff : (∃ f ∈ order₁, Reach (Calls plan) f g) ↔ (∃ f ∈ order₂, Reach (Calls plan) f g) := by
      simp only [hperm.mem_iff]
    by_cases hr : ∃ f ∈ order₁, Reach (Calls plan) f g
    · rw [(body_once h₁ g).1 hr, (body_once h₂ g).1 (hiff.1 hr)]
    · rw [(body_once h₁ g).2 hr, (body_once h₂ g).2 (fun h => hr (hiff.2 h))]

/-! ## Literals that call back

```go
// Errors:
//
//    - a-error --
//    - b-error --
func A() error { if x { return &Err{"a-error"} }; return B() }
// (same declaration)
func B() error {
	l := func() error { return A() }
	if x { return &Err{"b-error"} }
	return l()
}
```

`0` is `A`, `1` is `B`, `2` is the literal. -/

/-- The plans of the program above. -/
def callback : Nat → Plan Nat Unit
  | 0 => .union (.codes [b!"a-error"]) (.call 1)
  | 1 => .union (.codes [b!"b-error"]) (.visit 2)
  | 2 => .call 0
  | _ => .codes []

/-- The codes `f` is compared with. -/
def comparedWith (r : Except Stop (List (Nat × CodeSet) × Search Nat Unit)) (f : Nat) :
    Option CodeSet := (r.toOption.map Prod.fst).bind (fun l => l.lookup f)

/-- **C20 is false of the code** (and with it C18 and C24 for such literals): if `A` is analysed first, `B` is found to
return only `b-error`; if `B` is analysed first, both codes are found.  At run time `B` returns both. -/
theorem order_matters :
    comparedWith (Search.findAll callback 4 [0, 1] Search.start) 1 = some [b!"b-error"] ∧
    comparedWith (Search.findAll callback 4 [1, 0] Search.start) 1 = some [b!"b-error", b!"a-error"] ∧
    CodesOf callback 1 b!"a-error" := by
  refine ⟨by decide, by decide, ?_⟩
  refine CodesOf.consistent.1 1 _ (.inr ?_)
  refine CodesOf.consistent.1 2 _ ?_
  exact CodesOf.consistent.1 0 _ (.inl (List.mem_singleton.mpr rfl))

/-- In the same program, extended by functions `3` and `4` which are mutually recursive but do not call the others, the codes of `3` are
exact although the program has a literal calling back. -/
def partly : Nat → Plan Nat Unit
  | 3 => .union (.codes [b!"c-error"]) (.call 4)
  | 4 => .union (.codes [b!"d-error"]) (.call 3)
  | n => callback n

theorem partly_settled : Settled partly 3 ∧ ¬ NoLiteralCycle partly := by
  constructor
  · intro g hr z hz
    have hg : g = 3 ∨ g = 4 := Reach.closed (S := fun x => x = 3 ∨ x = 4) (fun a b ha hab => by
      rcases ha with rfl | rfl <;> simp [Calls, partly, Plan.targets] at hab <;> simp [hab]) hr (.inl rfl)
    rcases hg with rfl | rfl <;> simp [partly, Plan.visits] at hz
  · intro h
    refine h 1 2 (by simp [partly, callback, Plan.visits]) (.step (b := 0) ?_ (.step (b := 1) ?_ (.refl 1)))
    · simp [Calls, partly, callback, Plan.targets]
    · simp [Calls, partly, callback, Plan.targets]

example : (Search.findAll partly 6 [0, 1, 3] Search.start).map Prod.fst = .ok
    [(0, [b!"a-error", b!"b-error"]), (1, [b!"b-error"]), (3, [b!"c-error", b!"d-error"])] := by decide

/-- **C22 is false of the code**: calling the same local literal in two return statements visits it twice. -/
theorem literal_called_twice_panics :
    Search.findAll (fun n : Nat => if n = 0 then .union (.visit 1) (.visit 1) else .codes [] : Nat → Plan Nat Unit)
      3 [0] Search.start |>.map Prod.fst |> (· = .error .revisit) := by
  rfl

/-! ## The hypotheses are met -/

/-- Two mutually recursive functions, a helper with a remove annotation, and a literal. -/
def sample : Nat → Plan Nat String
  | 0 => .union (.codes [b!"x-error"]) (.union (.call 1) (.report "r0"))
  | 1 => .union (.minus (.call 0) [b!"x-error"]) (.union (.call 2) (.visit 3))
  | 2 => .codes [b!"y-error", b!"z-error"]
  | 3 => .union (.codes [b!"w-error"]) (.report "r3")
  | _ => .codes []

theorem sample_noLiteralCycle : NoLiteralCycle sample := by
  intro f g hg
  match f, hg with
  | 1, hg =>
    simp [sample, Plan.visits] at hg
    subst hg
    intro hr
    cases hr with
    | step e _ => simp [Calls, sample, Plan.targets] at e
  | 0, hg => simp [sample, Plan.visits] at hg
  | 2, hg => simp [sample, Plan.visits] at hg
  | 3, hg => simp [sample, Plan.visits] at hg
  | _ + 4, hg => simp [sample, Plan.visits] at hg

example : NoLiteralCycle sample ∧
    (Search.findAll sample 5 [0, 1] Search.start).map Prod.fst = .ok
      [(0, [b!"x-error", b!"y-error", b!"z-error", b!"w-error"]),
       (1, [b!"x-error", b!"y-error", b!"z-error", b!"w-error"])] :=
  ⟨sample_noLiteralCycle, by decide⟩

/-- A plain program (ordinary calls only, closed in `[0, 1, 2]`). -/
example : Plain (fun n : Nat => if n = 0 then .call 1 else if n = 1 then .union (.call 0) (.call 2)
      else .codes [b!"x"] : Nat → Plan Nat Unit) ∧
    ClosedIn (fun n : Nat => if n = 0 then .call 1 else if n = 1 then .union (.call 0) (.call 2)
      else .codes [b!"x"] : Nat → Plan Nat Unit) [0, 1, 2] := by
  refine ⟨fun f => ?_, ?_⟩
  · by_cases h0 : f = 0
    · simp [h0, Plan.visits, Plan.panics]
    · by_cases h1 : f = 1 <;> simp [h0, h1, Plan.visits, Plan.panics]
  · intro f hf g hg
    unfold Calls at hg
    simp at hf
    rcases hf with rfl | rfl | rfl <;> simp [Plan.targets] at hg <;> simp [hg]
    rcases hg with rfl | rfl <;> simp

end Serum.Props.CallGraph
