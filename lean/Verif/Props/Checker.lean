import Verif.Props.FieldOrder

/-!
# C54 — a check that the result of a run does not depend on orders of iteration

`safe` inspects a package together with the facts known after one run, in one order.  If it succeeds, the run has the same result in every
order (`every_order`), whatever the package: the hypotheses of the theorems about orders are decided by evaluation.  This is how the
packages in `analysis/testdata` are shown to meet them (`Verif/Testdata`).
-/

namespace Serum.Check
open Serum RunSpec Props.Run

/-! ## The check -/

/-- The methods declared in interfaces. -/
def ifaceMethods (P : Package) : List (IfaceDecl × IfaceMethod) :=
  P.ifaces.flatMap fun d => d.elements.filterMap fun | .embedded _ => none | .method m => some (d, m)

/-- Declared objects are different. -/
def objects (P : Package) : Bool :=
  decide P.funcs.Nodup && decide (P.funcs.map P.env.funcObj).Nodup &&
  decide ((ifaceMethods P).map fun x => P.methodObj x.2.ident.id).Nodup &&
  (ifaceMethods P).all (fun x => !(P.funcs.map P.env.funcObj).contains (P.methodObj x.2.ident.id)) &&
  P.funcs.all (fun f => (P.env.facts.codes (P.env.funcObj f)).isNone && (P.env.facts.ctor (P.env.funcObj f)).isNone) &&
  (ifaceMethods P).all (fun x => (P.env.facts.codes (P.methodObj x.2.ident.id)).isNone) &&
  decide (P.ifaces.map IfaceDecl.obj).Nodup && P.ifaces.all fun d => (P.env.facts.interface d.obj).isNone

/-- Depth of embedding. -/
def rank (ds : List IfaceDecl) : Nat → GoString → Nat
  | 0, _ => 0
  | n + 1, name => ((ds.filter (·.name == name)).flatMap IfaceDecl.elements).foldl (fun k e => match e with
      | .embedded (.name _ x) => max k (rank ds n x + 1)
      | _ => k) 0

/-- Names of interfaces and their methods are different, and no interface embeds itself. -/
def program (ds : List IfaceDecl) : Bool :=
  decide (ds.map IfaceDecl.name).Nodup && ds.all (fun d => decide (Interfaces.methodNames d.elements).Nodup) &&
  ds.all fun d => d.elements.all fun e => match e with
    | .embedded (.name _ x) => ds.all (fun d' => d'.name != x) || decide (rank ds ds.length x < rank ds ds.length d.name)
    | _ => true

/-- For each function the functions it calls and the literals it visits. -/
abbrev Graph := List (List FnId × List FnId)

def Graph.at_ (g : Graph) (f : FnId) : List FnId × List FnId := g.getD f ([], [])

/-- The graph has all calls and visits, with the facts known while functions are compared with their declarations, and with all facts. -/
def covers (P : Package) (facts : Facts) (g : Graph) : Bool :=
  (List.range P.env.funcs.length).all fun f =>
    (P.plan (during P facts) f).calls.all (g.at_ f).1.contains && (P.plan (during P facts) f).visits.all (g.at_ f).2.contains &&
    (P.plan facts f).calls.all (g.at_ f).1.contains && (P.plan facts f).visits.all (g.at_ f).2.contains

/-- Literals that are visited are not called. -/
def uncalled (P : Package) (g : Graph) : Bool :=
  g.all fun e => e.2.all fun z => !P.funcs.contains z && g.all fun e' => !e'.1.contains z

def Graph.add (acc : List FnId) (f : FnId) : List FnId := if acc.contains f then acc else acc ++ [f]

/-- What is reached in a number of steps. -/
def Graph.reached (g : Graph) : Nat → List FnId → List FnId
  | 0, r => r
  | n + 1, r => Graph.reached g n (r.foldl (fun acc f => ((g.at_ f).1 ++ (g.at_ f).2).foldl Graph.add acc) r)

/-- Literals do not call back. -/
def noCallback (g : Graph) : Bool :=
  (List.range g.length).all fun f => (g.at_ f).2.all fun z =>
    let r := g.reached g.length [z]
    r.contains z && r.all (fun x => ((g.at_ x).1 ++ (g.at_ x).2).all r.contains) && !r.contains f

/-- The whole check. -/
def safe (P : Package) (facts : Facts) (g : Graph) : Bool :=
  objects P && program P.ifaces && covers P facts g && uncalled P g && noCallback g

/-! ## What it means -/

variable {P : Package} {facts : Facts} {g : Graph}

theorem inj_of_nodup {α β : Type} {f : α → β} : ∀ {l : List α}, (l.map f).Nodup → ∀ a ∈ l, ∀ b ∈ l, f a = f b → a = b
  | [], _ => by simp
  | x :: l, h => by
    simp only [List.map_cons, List.nodup_cons, List.mem_map, not_exists, not_and] at h
    intro a ha b hb he
    rcases List.mem_cons.1 ha with rfl | h1 <;> rcases List.mem_cons.1 hb with rfl | h2
    · rfl
    · exact (h.1 b h2 he.symm).elim
    · exact (h.1 a h1 he).elim
    · exact inj_of_nodup h.2 a h1 b h2 he

theorem mem_ifaceMethods {d : IfaceDecl} {m : IfaceMethod} (hd : d ∈ P.ifaces) (hm : .method m ∈ d.elements) : (d, m) ∈ ifaceMethods P :=
  List.mem_flatMap.2 ⟨d, hd, List.mem_filterMap.2 ⟨_, hm, rfl⟩⟩

/-- Recorded interfaces have one entry per method name. -/
def Tables (facts : Facts) : Prop := ∀ o ms, facts.interface o = some ms → (ms.map Prod.fst).Nodup

theorem objects_sound (h : objects P = true) (ht : Tables P.env.facts) : Objects P := by
  simp only [objects, Bool.and_eq_true, decide_eq_true_eq, List.all_eq_true, Option.isNone_iff_eq_none, Bool.not_eq_true',
    List.contains_eq_mem, decide_eq_false_iff_not, List.mem_map] at h
  obtain ⟨⟨⟨⟨⟨⟨⟨h1, h2⟩, h3⟩, h4⟩, h5⟩, h6⟩, h7⟩, h8⟩ := h
  refine ⟨h1, inj_of_nodup h2, fun d hd m hm d' hd' m' hm' he => ?_, fun f hf d hd m hm he => ?_, h5, fun d hd m hm => ?_,
    inj_of_nodup h7, h8, ht⟩
  · have := inj_of_nodup h3 _ (mem_ifaceMethods hd hm) _ (mem_ifaceMethods hd' hm') he
    simpa using this
  · exact h4 _ (mem_ifaceMethods hd hm) ⟨f, hf, he⟩
  · exact h6 _ (mem_ifaceMethods hd hm)

theorem program_sound {ds : List IfaceDecl} (h : program ds = true) : Props.Interfaces.Program ds := by
  simp only [program, Bool.and_eq_true, decide_eq_true_eq, List.all_eq_true] at h
  obtain ⟨⟨h1, h2⟩, h3⟩ := h
  refine ⟨h1, h2, rank ds ds.length, fun d hd d' hd' id hm => ?_⟩
  have := h3 d hd _ hm
  simp only [Bool.or_eq_true, decide_eq_true_eq, List.all_eq_true, bne_iff_ne, ne_eq] at this
  rcases this with h | h
  · exact absurd rfl (h d' hd')
  · exact h

theorem noBody {f : FnId} (h : P.env.funcs.length ≤ f) : P.plan facts f = .panic "analyse.go:497: nil pointer dereference (function without body)" := by
  have : ((P.at_ facts).func f).body = none := by
    show (P.env.func f).body = none
    simp [Env.func, List.getD, List.getElem?_eq_none h]
  unfold Package.plan Analyse.plan Analyse.bodyPlan
  rw [this]

theorem covers_sound (h : covers P facts g = true) (f : FnId) :
    (∀ z, z ∈ (P.plan (during P facts) f).calls ∨ z ∈ (P.plan facts f).calls → z ∈ (g.at_ f).1) ∧
    ∀ z, z ∈ (P.plan (during P facts) f).visits ∨ z ∈ (P.plan facts f).visits → z ∈ (g.at_ f).2 := by
  by_cases hf : f < P.env.funcs.length
  · simp only [covers, Bool.and_eq_true, List.all_eq_true, List.mem_range, List.contains_eq_mem, decide_eq_true_eq] at h
    obtain ⟨⟨⟨h1, h2⟩, h3⟩, h4⟩ := h f hf
    exact ⟨fun z hz => hz.elim (h1 z) (h3 z), fun z hz => hz.elim (h2 z) (h4 z)⟩
  · have e1 := noBody (P := P) (facts := facts) (Nat.le_of_not_lt hf)
    have e2 := noBody (P := P) (facts := during P facts) (Nat.le_of_not_lt hf)
    rw [e1, e2]
    simp [Plan.calls, Plan.visits]

theorem seen_covered (h : covers P facts g = true) (f : FnId) :
    (∀ z ∈ (seen P facts f).calls, z ∈ (g.at_ f).1) ∧ ∀ z ∈ (seen P facts f).visits, z ∈ (g.at_ f).2 := by
  have hc := covers_sound h f
  unfold seen
  split
  · exact ⟨fun z hz => hc.1 z (.inl hz), fun z hz => hc.2 z (.inl hz)⟩
  · exact ⟨fun z hz => hc.1 z (.inr hz), fun z hz => hc.2 z (.inr hz)⟩

theorem Graph.mem_at {f : FnId} {z : FnId} (h : z ∈ (g.at_ f).2 ∨ z ∈ (g.at_ f).1) : f < g.length ∧ g.at_ f ∈ g := by
  unfold Graph.at_ at h ⊢
  by_cases hf : f < g.length
  · refine ⟨hf, ?_⟩
    simp only [List.getD, List.getElem?_eq_getElem hf, Option.getD_some]
    exact List.getElem_mem hf
  · simp [List.getD, List.getElem?_eq_none (Nat.le_of_not_lt hf)] at h

theorem noCallback_sound (h : noCallback g = true) {plan : FnId → BodyPlan}
    (hc : ∀ f, (∀ z ∈ (plan f).calls, z ∈ (g.at_ f).1) ∧ ∀ z ∈ (plan f).visits, z ∈ (g.at_ f).2) : Props.CallGraph.NoLiteralCycle plan := by
  intro f z hz hr
  have hz := (hc f).2 z hz
  simp only [noCallback, Bool.and_eq_true, List.all_eq_true, List.mem_range, List.contains_eq_mem, decide_eq_true_eq, Bool.not_eq_true',
    decide_eq_false_iff_not] at h
  obtain ⟨⟨h1, h2⟩, h3⟩ := h f (Graph.mem_at (.inl hz)).1 z hz
  refine h3 (Reach.closed (S := fun x => x ∈ g.reached g.length [z]) (fun a b ha hab => h2 a ha b ?_) hr h1)
  rcases (Plan.mem_targets_iff _).1 hab with k | k
  · exact List.mem_append_left _ ((hc a).1 b k)
  · exact List.mem_append_right _ ((hc a).2 b k)

theorem uncalled_sound (h : uncalled P g = true) (hc : covers P facts g = true) : ValuesUncalled P facts := by
  intro f _ z hz
  have hz := (seen_covered hc f).2 z hz
  simp only [uncalled, Bool.and_eq_true, List.all_eq_true, List.contains_eq_mem, Bool.not_eq_true', decide_eq_false_iff_not] at h
  obtain ⟨h1, h2⟩ := h _ (Graph.mem_at (.inl hz)).2 z hz
  refine ⟨h1, fun g' _ hz' => ?_⟩
  have hz' := (seen_covered hc g').1 z hz'
  exact h2 _ (Graph.mem_at (.inr hz')).2 hz'

variable {S : Schedule} {strict : Bool} {out : Outcome}

theorem tables_sound (h : runVerify P S strict = .ok out) (hS : S.Fair) (ho : objects P = true) (hp : program P.ifaces = true)
    (ht : Tables P.env.facts) : Tables out.facts := by
  obtain ⟨h1, h2⟩ := interfaces_exact_partial h hS (objects_sound ho ht) (program_sound hp)
  intro o ms hm
  by_cases hd : ∃ d ∈ P.ifaces, d.obj = o
  · obtain ⟨d, hd, rfl⟩ := hd
    exact ((h1 d hd).2 ms hm).1
  · rw [h2 o fun d hd' he => hd ⟨d, hd', he⟩] at hm
    exact ht o ms hm

/-- **C54**: if the check succeeds after one run, there is a run with the same result for every order in which maps are iterated, also if
the packages it imports have been analysed in another order (so that the methods of their interfaces are listed in another order). -/
theorem every_order (h : runVerify P S strict = .ok out) (hS : S.Fair) (ht : Tables P.env.facts) (hs : safe P out.facts g = true)
    {F : Facts} (hF : SameFacts P.env.facts F) {S' : Schedule} (hS' : S'.Fair)
    (o : FnId → List ObjId → List ObjId) (hf : ∀ f v, (o f v).Perm v) :
    ∃ out', runVerify ((P.given F).reordered o hf) S' strict = .ok out' ∧ SameOutcome out out' := by
  simp only [safe, Bool.and_eq_true] at hs
  obtain ⟨⟨⟨⟨ho, hp⟩, hc⟩, hu⟩, hn⟩ := hs
  have ho := objects_sound ho ht
  have hp := program_sound hp
  obtain ⟨s, hr⟩ := ran_iff.1 h
  obtain ⟨mid, h'⟩ := (same_success_partial hF hS hS' ho hp fun s' out' h' => by
    have hsame := hr.toPrepared.sameFacts h' hS hS ho hp
    intro f hl z hz
    rw [← seen_same hsame] at hz ⊢
    obtain ⟨k1, k2⟩ := uncalled_sound hu hc f ((lookedAt_same hsame).2 hl) z hz
    exact ⟨k1, fun g hg => k2 g ((lookedAt_same hsame).2 hg)⟩).1 ⟨_, h⟩
  have hsame := same_inputs_partial hF h h' hS hS' ho hp (fun f _ _ => (noCallback_sound hn fun f => by
      have := covers_sound hc f
      exact ⟨fun z hz => this.1 z (.inl hz), fun z hz => this.2 z (.inl hz)⟩).settled f)
    fun f _ => (noCallback_sound hn fun f => seen_covered hc f).settled f
  obtain ⟨h1, h2⟩ := field_order_independent (P := P.given F) (strict := strict) o hf hS'
  obtain ⟨out', h''⟩ := h1.1 ⟨_, h'⟩
  obtain ⟨e, hb⟩ := h2 mid out' h' h''
  refine ⟨out', h'', ?_⟩
  rw [e]
  exact ⟨hsame.facts, hsame.tags, hsame.ifaces, hsame.signatures, hsame.claims, hsame.bodies.trans hb, hsame.mismatches, hsame.conversions⟩

/-! ## Comparing with an expected result -/

/-- An expected result.  Facts are listed for all objects with a number below `objects`. -/
structure Expected where
  tags : List TagDiag
  ifaces : List IfaceDiag
  signatures : List ClaimDiag
  claims : List ClaimDiag
  bodies : List (FnId × Diag)
  mismatches : List (FnId × GoString)
  conversions : List Conv.Report
  codes : List (Object × CodeSet)
  ctors : List (Object × Nat)
  errorTypes : List (Object × ErrorType)
  interfaces : List (Object × List (GoString × CodeSet))
  objects : Nat

def find {α : Type} (o : Object) : List (Object × α) → Option α
  | [] => none
  | (k, v) :: l => if k = o then some v else find o l

/-- The result is the expected one: diagnostics are these, and as often, and facts are these, and no others. -/
structure Meets (out : Outcome) (e : Expected) : Prop where
  tags : out.tags.Perm e.tags
  ifaces : out.ifaces.Perm e.ifaces
  signatures : out.signatures.Perm e.signatures
  claims : out.claims.Perm e.claims
  bodies : out.bodies.Perm e.bodies
  mismatches : out.mismatches.Perm e.mismatches
  conversions : out.conversions.Perm e.conversions
  codes : ∀ o < e.objects, out.facts.codes o = find o e.codes
  ctors : ∀ o < e.objects, out.facts.ctor o = find o e.ctors
  errorTypes : ∀ o < e.objects, out.facts.errorType o = find o e.errorTypes
  interfaces : ∀ o < e.objects, match out.facts.interface o, find o e.interfaces with
    | none, none => True
    | some ms, some ms' => ms.Perm ms'
    | _, _ => False

/-- Every run over the package, given any facts `Imported` about other packages, ends and has the expected result, whatever the orders
in which maps are iterated. -/
def Always (P : Package) (Imported : Facts → Prop) (strict : Bool) (e : Expected) : Prop :=
  ∀ F, Imported F → ∀ S : Schedule, S.Fair → ∀ (o : FnId → List ObjId → List ObjId) (hf : ∀ f v, (o f v).Perm v),
    ∃ out, runVerify ((P.given F).reordered o hf) S strict = .ok out ∧ Meets out e

/-- The facts known after some run over the package. -/
def Exports (P : Package) (Imported : Facts → Prop) (strict : Bool) (facts : Facts) : Prop :=
  ∃ F, Imported F ∧ ∃ S : Schedule, S.Fair ∧ ∃ (o : FnId → List ObjId → List ObjId) (hf : ∀ f v, (o f v).Perm v) (out : Outcome),
    runVerify ((P.given F).reordered o hf) S strict = .ok out ∧ facts = out.facts

/-- One order. -/
def source : Schedule where
  functions := id
  ifaceNames := fun t => t.map Prod.fst
  tables := fun t => t
  ifaceMatch := ⟨id, id, id, id⟩
  ifaceExport := id
  ctorExport := id
  claims := id
  codesExport := id
  claimMatch := fun _ => ⟨id, id, id, id⟩
  conv := ⟨id, id, id⟩

theorem source_fair : source.Fair where
  functions := fun _ => .refl _
  ifaceNames := fun _ => .refl _
  tables := fun _ => .refl _
  ifaceMatch := ⟨fun _ => .refl _, fun _ => .refl _, fun _ => .refl _, fun _ => .refl _⟩
  ifaceExport := fun _ => .refl _
  ctorExport := fun _ => .refl _
  claims := fun _ => .refl _
  codesExport := fun _ => .refl _
  claimMatch := fun _ => ⟨fun _ => .refl _, fun _ => .refl _, fun _ => .refl _, fun _ => .refl _⟩
  conv := ⟨fun _ => .refl _, fun _ => .refl _, fun _ => .refl _⟩

/-- Diagnostics and facts, literally. -/
def agrees (out : Outcome) (e : Expected) : Bool :=
  decide (out.tags = e.tags) && decide (out.ifaces = e.ifaces) && decide (out.signatures = e.signatures) && decide (out.claims = e.claims) &&
  decide (out.bodies = e.bodies) && decide (out.mismatches = e.mismatches) && decide (out.conversions = e.conversions) &&
  (List.range e.objects).all fun o => decide (out.facts.codes o = find o e.codes) && decide (out.facts.ctor o = find o e.ctors) &&
    decide (out.facts.errorType o = find o e.errorTypes) && decide (out.facts.interface o = find o e.interfaces)

/-- Run, compare, and check. -/
def run (P : Package) (strict : Bool) (e : Expected) (g : Graph) : Bool :=
  match runVerify P source strict with
  | .error _ => false
  | .ok out => agrees out e && safe P out.facts g

def factsOf : Except Stop Outcome → Facts
  | .ok out => out.facts
  | .error _ => ⟨fun _ => none, fun _ => none, fun _ => none, fun _ => none⟩

/-- **C54**: a package for which the check succeeds always has the expected result. -/
theorem always {e : Expected} {Imported : Facts → Prop} (h : run P strict e g = true) (ht : Tables P.env.facts)
    (hi : ∀ F, Imported F → SameFacts P.env.facts F) : Always P Imported strict e := by
  intro F hF S hS o hf
  unfold run at h
  split at h
  · cases h
  rename_i out hr
  simp only [Bool.and_eq_true] at h
  obtain ⟨out', h', hs⟩ := every_order hr source_fair ht h.2 (hi F hF) hS o hf
  refine ⟨out', h', ?_⟩
  have ha := h.1
  simp only [agrees, Bool.and_eq_true, decide_eq_true_eq, List.all_eq_true, List.mem_range] at ha
  obtain ⟨⟨⟨⟨⟨⟨⟨h1, h2⟩, h3⟩, h4⟩, h5⟩, h6⟩, h7⟩, h8⟩ := ha
  refine ⟨?_, ?_, ?_, ?_, ?_, ?_, ?_, fun o ho => ?_, fun o ho => ?_, fun o ho => ?_, fun o ho => ?_⟩
  · rw [← h1, hs.tags]
  · rw [← h2]; exact hs.ifaces.symm
  · rw [← h3]; exact hs.signatures.symm
  · rw [← h4]; exact hs.claims.symm
  · rw [← h5]; exact hs.bodies.symm
  · rw [← h6]; exact hs.mismatches.symm
  · rw [← h7]; exact hs.conversions.symm
  · rw [← (h8 o ho).1.1.1, hs.facts.codes]
  · rw [← (h8 o ho).1.1.2, hs.facts.ctor]
  · rw [← (h8 o ho).1.2, hs.facts.errorType]
  · rw [← (h8 o ho).2]
    rcases hs.facts.interface o with ⟨k1, k2⟩ | ⟨ms, ms', k1, k2, k3⟩
    · rw [k1, k2]; trivial
    · rw [k1, k2]; exact k3.symm

/-- Facts exported by a package for which the check succeeds can be imported. -/
theorem tables {e : Expected} (h : run P strict e g = true) (ht : Tables P.env.facts) : Tables (factsOf (runVerify P source strict)) := by
  unfold run at h
  split at h
  · cases h
  rename_i out hr
  simp only [Bool.and_eq_true, safe] at h
  rw [hr]
  exact tables_sound hr source_fair h.2.1.1.1.1 h.2.1.1.1.2 ht

/-- Facts exported in another order are the same. -/
theorem exports_same {e : Expected} {Imported : Facts → Prop} (h : run P strict e g = true) (ht : Tables P.env.facts)
    (hi : ∀ F, Imported F → SameFacts P.env.facts F) {facts : Facts} (hx : Exports P Imported strict facts) :
    SameFacts (factsOf (runVerify P source strict)) facts := by
  obtain ⟨F, hF, S, hS, o, hf, out', h', rfl⟩ := hx
  unfold run at h
  split at h
  · cases h
  rename_i out hr
  simp only [Bool.and_eq_true] at h
  obtain ⟨out'', h'', hs⟩ := every_order hr source_fair ht h.2 (hi F hF) hS o hf
  rw [h'] at h''; cases h''
  rw [hr]
  exact hs.facts

end Serum.Check
