import Verif.AcceptLemmas
import Verif.Props.CallGraph
import Verif.Props.Tracking

/-!
# C31, C32, C34: using values where interfaces with error methods are expected

`Conv.steps env info decls` is what `findConversionsToErrorReturningInterfaces` decides to check in a
package, in order; `Conv.runSteps` executes those checks.  The specification of where Go converts values
(`Spec/ConversionSpec.lean`) and of which types are acceptable (`Spec/AcceptSpec.lean`) are separate.

`WellTyped` states what the Go type checker guarantees; `Supported` excludes the forms which the analyzer
treats wrongly.  Each exclusion has a theorem at the end of this file showing what happens there.
-/

namespace Serum.Props.Conversions
open Serum Serum.Conv Serum.ConvSpec Serum.Props.Reports Serum.Props.CallGraph

variable {D : Type} {env : Env} {info : Info} {calls : CallKind} {decls : List TopDecl}

/-! ## Where checks happen -/

/-- **C34**, for one piece of syntax: it does not make the analyzer crash, and `e` of type `S` is checked against the interface `T`
with error methods `ms` if and only if Go converts it to `T` there. -/
theorem positions_exact_partial {w : Option FuncType} {n : Node} (hw : WellTyped env info calls w n)
    (hs : Supported env info calls w n) :
    (∀ loc, .panic loc ∉ atNode env info w n) ∧
    ∀ ms T S e, .check ⟨ms, T, S, e⟩ ∈ atNode env info w n ↔
      IsErrorInterface env T ms ∧ Converts env info calls w n T S e := by
  have h := atNode_exact hw hs
  refine ⟨fun loc hp => ?_, fun ms T S e => ?_⟩
  · obtain ⟨_, _, _, _, he, _⟩ := (h _).1 hp
    cases he
  · rw [h]
    constructor
    · rintro ⟨ms', T', S', e', he, h1, h2⟩
      cases he; exact ⟨h1, h2⟩
    · rintro ⟨h1, h2⟩; exact ⟨ms, T, S, e, rfl, h1, h2⟩

/-- The package satisfies the assumptions everywhere. -/
def Fine (env : Env) (info : Info) (calls : CallKind) (decls : List TopDecl) : Prop :=
  ∀ n w, InPackage env decls n w → WellTyped env info calls w n ∧ Supported env info calls w n

/-- Somewhere in the package, the expression `e` of type `S` is converted to type `T`. -/
def ConvertedTo (env : Env) (info : Info) (calls : CallKind) (decls : List TopDecl) (T S : GoType) (e : NodeId) : Prop :=
  ∃ n w, InPackage env decls n w ∧ Converts env info calls w n T S e

/-- **C34**, for a package: exactly the conversions to interfaces with error methods are checked, wherever they are, at any depth
of function literals and with the result types of the innermost function around them. -/
theorem package_checked_partial (hf : Fine env info calls decls) :
    (∀ loc, .panic loc ∉ steps env info decls) ∧
    ∀ ms T S e, .check ⟨ms, T, S, e⟩ ∈ steps env info decls ↔
      IsErrorInterface env T ms ∧ ConvertedTo env info calls decls T S e := by
  refine ⟨fun loc hp => ?_, fun ms T S e => ?_⟩
  · obtain ⟨m, w, hm, hp⟩ := (mem_steps decls).1 hp
    exact (positions_exact_partial (hf m w hm).1 (hf m w hm).2).1 loc hp
  · rw [mem_steps]
    constructor
    · rintro ⟨m, w, hm, h⟩
      obtain ⟨h1, h2⟩ := ((positions_exact_partial (hf m w hm).1 (hf m w hm).2).2 ms T S e).1 h
      exact ⟨h1, m, w, hm, h2⟩
    · rintro ⟨h1, m, w, hm, h2⟩
      exact ⟨m, w, hm, ((positions_exact_partial (hf m w hm).1 (hf m w hm).2).2 ms T S e).2 ⟨h1, h2⟩⟩

/-- Whatever the package, each node is looked at, with the type of the innermost function around it, and nothing else is. -/
theorem every_node_visited (st : Step) :
    st ∈ steps env info decls ↔ ∃ n w, InPackage env decls n w ∧ st ∈ atNode env info w n := mem_steps decls

/-! ## What is reported -/

/-- Method `m` of type `S` has codes that are not in `allowed`: exactly `codes`, sorted. -/
structure Smuggles (env : Env) (plan : FnId → Plan FnId D) (S : GoType) (m : GoString) (allowed : CodeSet) (codes : List GoString) : Prop where
  some_ : codes ≠ []
  nodup : codes.Nodup
  sorted : Ascending codes
  exact_ : ∀ c, c ∈ codes ↔ MethodCode env plan S m c ∧ c ∉ allowed

/-- The checks of a package are executed after the functions with declarations (`order`) have been analysed as `p₁`; functions met only
now are analysed as `p₂` (more facts are known now). -/
structure Run (env : Env) (info : Info) (o : Orders) (decls : List TopDecl) (p₁ p₂ : FnId → Plan FnId D) (order : List FnId)
    (reports : List Report) where
  fuel : Nat
  results : List (FnId × CodeSet)
  st : Search FnId D
  fuel' : Nat
  st' : Search FnId D
  first : Search.findAll p₁ fuel order Search.start = .ok (results, st)
  second : runSteps env o p₂ fuel' (steps env info decls) st = .ok (reports, st')

/-- The program both phases see: functions reachable from the analysed ones as in the first phase, the others as in the second. -/
noncomputable def program (p₁ p₂ : FnId → Plan FnId D) (order : List FnId) : FnId → Plan FnId D :=
  open Classical in fun x => if ∃ f ∈ order, Reach (Calls p₁) f x then p₁ x else p₂ x

private theorem mixed_program {p₁ p₂ : FnId → Plan FnId D} {order : List FnId} {st : Search FnId D}
    (h : ∀ x, st.scc.Vis x ↔ ∃ f ∈ order, Reach (Calls p₁) f x) : Search.mixed st p₁ p₂ = program p₁ p₂ order := by
  funext x; simp only [Search.mixed, program]; congr 1; exact propext (h x)

/-- If the codes of method `m` of type `S` have to be found in the body of its declaration, no function literal calling back is reached
from there. -/
def MethodSettled (env : Env) (plan : FnId → Plan FnId D) (S : GoType) (m : GoString) : Prop :=
  ∀ ob f, MethodOf env S m ob → env.facts.codes ob = none → Declares env f m ob → Settled plan f

theorem methodSettled {plan : FnId → Plan FnId D} (hl : NoLiteralCycle plan) (S : GoType) (m : GoString) : MethodSettled env plan S m :=
  fun _ f _ _ _ => hl.settled f

theorem settled_closed {plan : FnId → Plan FnId D} : ∀ x y, Settled plan x → Calls plan x y → Settled plan y :=
  fun _ _ hx hc => hx.reach (Reach.edge hc)

theorem settled_visits {plan : FnId → Plan FnId D} : ∀ f, Settled plan f → ∀ z ∈ (plan f).visits, ¬ Reach (Calls plan) z f :=
  fun f hf => hf f (.refl f)

theorem run_start {o : Orders} {p₁ p₂ : FnId → Plan FnId D} {order : List FnId}
    {reports : List Report} (run : Run env info o decls p₁ p₂ order reports) :
    Search.InvG (Settled (program p₁ p₂ order)) (program p₁ p₂ order) [] run.st ∧
    runSteps env o (program p₁ p₂ order) run.fuel' (steps env info decls) run.st = .ok (reports, run.st') := by
  have h1 := Search.findAll_specG (G := Settled p₁) settled_closed settled_visits run.fuel order _ (Search.inv_startG (plan := p₁))
  rw [run.first] at h1
  obtain ⟨hinv, _, _, hvis⟩ := h1
  have hm : Search.mixed run.st p₁ p₂ = program p₁ p₂ order :=
    mixed_program fun x => by rw [hvis]; simp [Search.start, Scc.start, Scc.Vis]
  have hs := run.second
  rw [(runSteps_congr (steps env info decls) run.st Search.mixed_agree).1, hm] at hs
  refine ⟨?_, hs⟩
  rw [← hm]
  refine hinv.mixed fun x hx hset => ?_
  exact Search.noCallback_transfer (S := run.st.scc.Vis) (p := p₁) (fun x hx => by simp [Search.mixed, hx])
    (fun x y hx hc => hinv.black x hx (by simp) y hc) hx hset

private theorem run_spec {o : Orders} (ho : o.Fair) (hone : DeclaredOnce env) {p₁ p₂ : FnId → Plan FnId D} {order : List FnId}
    {reports : List Report} (run : Run env info o decls p₁ p₂ order reports) :
    (∀ r ∈ reports, ∃ c, .check c ∈ steps env info decls ∧ c.source ≠ c.target ∧ c.source ≠ .untypedNil ∧
      CaughtFor env (program p₁ p₂ order) (Settled (program p₁ p₂ order)) c c.methods r) ∧
    ∀ r c, .check c ∈ steps env info decls → c.source ≠ c.target → c.source ≠ .untypedNil →
      ReportedFor env (program p₁ p₂ order) c c.methods r → MethodSettled env (program p₁ p₂ order) c.source r.method → r ∈ reports := by
  obtain ⟨hinv, hs⟩ := run_start run
  exact (runSteps_spec ho hone settled_closed settled_visits _ run.st hinv reports run.st' hs).2.1

/-- **C31**, in every program: a report names codes, sorted and without repetition, which that method of the value's type really has and
the interface does not declare. -/
theorem reports_derivable {o : Orders} (ho : o.Fair) (hone : DeclaredOnce env) {p₁ p₂ : FnId → Plan FnId D} {order : List FnId}
    {reports : List Report} (hf : Fine env info calls decls) (run : Run env info o decls p₁ p₂ order reports) (r : Report) (hr : r ∈ reports) :
    ∃ T S ms allowed, ConvertedTo env info calls decls T S r.at_ ∧ S ≠ T ∧ S ≠ .untypedNil ∧
      IsErrorInterface env T ms ∧ getNamedType T = r.interface ∧ (r.method, allowed) ∈ ms ∧
      r.codes ≠ [] ∧ r.codes.Nodup ∧ Ascending r.codes ∧ (∀ c ∈ r.codes, MethodCode env (program p₁ p₂ order) S r.method c ∧ c ∉ allowed) ∧
      (MethodSettled env (program p₁ p₂ order) S r.method →
        ∀ c, MethodCode env (program p₁ p₂ order) S r.method c → c ∉ allowed → c ∈ r.codes) := by
  obtain ⟨⟨ms, T, S, e⟩, hc, h1, h2, m, allowed, l, hm, hne, hex, rfl⟩ := (run_spec ho hone run).1 r hr
  obtain ⟨h3, h4⟩ := ((package_checked_partial hf).2 ms T S e).1 hc
  exact ⟨T, S, ms, allowed, h4, h1, h2, h3, rfl, hm, hne, hex.1, hex.2.1, hex.2.2.1, hex.2.2.2⟩

/-- One half of **C31**, with C34, for a single type: if the interface's declaration of a method lacks codes of that method of the value's
type, this is reported. -/
theorem smuggled_reported_partial {o : Orders} (ho : o.Fair) (hone : DeclaredOnce env) {p₁ p₂ : FnId → Plan FnId D} {order : List FnId}
    {reports : List Report} (hf : Fine env info calls decls) (run : Run env info o decls p₁ p₂ order reports) {T S : GoType} {e : NodeId}
    (hc : ConvertedTo env info calls decls T S e) (hne : S ≠ T) (hnil : S ≠ .untypedNil) {ms : List (GoString × CodeSet)}
    (hi : IsErrorInterface env T ms) {m : GoString} {allowed : CodeSet} (hm : (m, allowed) ∈ ms)
    (hl : MethodSettled env (program p₁ p₂ order) S m) {codes : List GoString}
    (hx : Smuggles env (program p₁ p₂ order) S m allowed codes) : ⟨e, getNamedType T, m, codes⟩ ∈ reports :=
  (run_spec ho hone run).2 _ ⟨ms, T, S, e⟩ (((package_checked_partial hf).2 ms T S e).2 ⟨hi, hc⟩) hne hnil ⟨m, allowed, codes, hm, hx.some_,
    ⟨hx.nodup, hx.sorted, hx.exact_⟩, rfl⟩ hl

/-- The same for a single code: if the interface's declaration of a method lacks a code of that method of the value's type, this code is
listed in a report at that expression. -/
theorem smuggled_code_reported_partial {o : Orders} (ho : o.Fair) (hone : DeclaredOnce env) {p₁ p₂ : FnId → Plan FnId D} {order : List FnId}
    {reports : List Report} (hf : Fine env info calls decls) (run : Run env info o decls p₁ p₂ order reports) {T S : GoType} {e : NodeId}
    (hc : ConvertedTo env info calls decls T S e) (hne : S ≠ T) (hnil : S ≠ .untypedNil) {ms : List (GoString × CodeSet)}
    (hi : IsErrorInterface env T ms) {m : GoString} {allowed : CodeSet} (hm : (m, allowed) ∈ ms)
    (hl : MethodSettled env (program p₁ p₂ order) S m) {c : GoString}
    (hx : MethodCode env (program p₁ p₂ order) S m c) (hno : c ∉ allowed) :
    ∃ codes, ⟨e, getNamedType T, m, codes⟩ ∈ reports ∧ c ∈ codes := by
  obtain ⟨hinv, hs⟩ := run_start run
  have hchk := ((package_checked_partial hf).2 ms T S e).2 ⟨hi, hc⟩
  obtain ⟨l, hl', hne'⟩ := (runSteps_listed ho hone settled_closed settled_visits (c := ⟨ms, T, S, e⟩) hne hnil hm hl _ _ hinv hchk _ _ hs).excess
    ho hx hno
  exact ⟨l, (run_spec ho hone run).2 ⟨e, getNamedType T, m, l⟩ _ hchk hne hnil ⟨m, allowed, l, hm, hne', hl', rfl⟩ hl, (hl'.2.2 c).2 ⟨hx, hno⟩⟩

/-- **C31**, together with C34.  A report for method `m` appears if and only if a value is used as an error interface whose
declaration of `m` lacks a code of that method of the value's type; it names the interface and lists exactly those codes.  nil and
values which already have the interface's type are never reported. -/
theorem reports_exact_partial {o : Orders} (ho : o.Fair) (hone : DeclaredOnce env) {p₁ p₂ : FnId → Plan FnId D} {order : List FnId}
    {reports : List Report} (hf : Fine env info calls decls) (run : Run env info o decls p₁ p₂ order reports) (r : Report)
    (hl : ∀ T S, ConvertedTo env info calls decls T S r.at_ → MethodSettled env (program p₁ p₂ order) S r.method) :
    r ∈ reports ↔ ∃ T S ms allowed, ConvertedTo env info calls decls T S r.at_ ∧ S ≠ T ∧ S ≠ .untypedNil ∧
      IsErrorInterface env T ms ∧ getNamedType T = r.interface ∧ (r.method, allowed) ∈ ms ∧
      Smuggles env (program p₁ p₂ order) S r.method allowed r.codes := by
  constructor
  · intro hr
    obtain ⟨T, S, ms, allowed, h1, h2, h3, h4, h5, h6, h7, h8, h9, h10, h11⟩ := reports_derivable ho hone hf run r hr
    exact ⟨T, S, ms, allowed, h1, h2, h3, h4, h5, h6, h7, h8, h9, fun c => ⟨h10 c, fun hc => h11 (hl T S h1) c hc.1 hc.2⟩⟩
  · rintro ⟨T, S, ms, allowed, h4, h1, h2, h3, h5, hm, hx⟩
    obtain ⟨a, i, m, l⟩ := r
    dsimp only at h4 h5 hm hx hl
    subst h5
    exact smuggled_reported_partial ho hone hf run h4 h1 h2 h3 hm (hl T S h4) hx

/-- **C31**, for one check, without assumptions about the syntax: `S` is accepted for the interface, i.e. nothing is reported, if and
only if no method has a code the interface does not declare. -/
theorem accepted_iff {o : Orders} (ho : o.Fair) (hone : DeclaredOnce env) {plan : FnId → Plan FnId D}
    {fuel : Nat} {T S : GoType} {ms : List (GoString × CodeSet)} (hl : ∀ x ∈ ms, MethodSettled env plan S x.1)
    {e : NodeId} (hne : S ≠ T) (hnil : S ≠ .untypedNil) {reports : List Report} {st' : Search FnId D}
    (h : runCheck env o plan fuel ⟨ms, T, S, e⟩ Search.start = .ok (reports, st')) :
    reports = [] ↔ Acceptable env plan S ms := by
  obtain ⟨-, h2, -⟩ := runCheck_spec ho hone settled_closed settled_visits _ _ Search.inv_startG h
  constructor
  · rintro rfl m allowed hm c hc
    refine Classical.byContradiction fun hno => ?_
    obtain ⟨l, hl'⟩ := (runCheck_listed ho hone settled_closed settled_visits Search.inv_startG h hne hnil hm (hl _ hm)).excess ho hc hno
    have := h2.2 ⟨e, getNamedType T, m, l⟩ hne hnil ⟨m, allowed, l, hm, hl'.2, hl'.1, rfl⟩ (hl _ hm)
    cases this
  · intro hacc
    cases reports with
    | nil => rfl
    | cons r rs =>
      obtain ⟨-, -, m, allowed, l, hm, hne', hex, -⟩ := h2.1 r (by simp)
      cases l with
      | nil => exact absurd rfl hne'
      | cons c l =>
        obtain ⟨h3, h4⟩ := hex.2.2.1 c (by simp)
        exact absurd (hacc m allowed hm c h3) h4

/-- nil and values of the interface's own type are never reported. -/
theorem nil_and_same_accepted {o : Orders} {plan : FnId → Plan FnId D} {fuel : Nat} (T S : GoType) (ms : List (GoString × CodeSet)) (e : NodeId)
    (st : Search FnId D) (h : S = T ∨ S = .untypedNil) : runCheck env o plan fuel ⟨ms, T, S, e⟩ st = .ok ([], st) := by
  unfold runCheck
  by_cases he : S = T
  · rw [if_pos he]
  · rw [if_neg he]
    rcases h with h | h
    · exact absurd h he
    · subst h; rfl

/-- A package without reports: every value used as an error interface is acceptable for it. -/
theorem silent_means_acceptable_partial {o : Orders} (ho : o.Fair) (hone : DeclaredOnce env) {p₁ p₂ : FnId → Plan FnId D} {order : List FnId}
    (hf : Fine env info calls decls) (run : Run env info o decls p₁ p₂ order [])
    {T S : GoType} {e : NodeId} {ms : List (GoString × CodeSet)} (hl : ∀ x ∈ ms, MethodSettled env (program p₁ p₂ order) S x.1)
    (hc : ConvertedTo env info calls decls T S e) (hne : S ≠ T)
    (hnil : S ≠ .untypedNil) (hi : IsErrorInterface env T ms) : Acceptable env (program p₁ p₂ order) S ms := by
  intro m allowed hm c hmc
  refine Classical.byContradiction fun hno => ?_
  obtain ⟨hinv, hs⟩ := run_start run
  have hchk := ((package_checked_partial hf).2 ms T S e).2 ⟨hi, hc⟩
  obtain ⟨l, hl', hne'⟩ := (runSteps_listed ho hone settled_closed settled_visits (c := ⟨ms, T, S, e⟩) hne hnil hm (hl _ hm) _ _ hinv hchk _ _ hs).excess
    ho hmc hno
  have := (run_spec ho hone run).2 ⟨e, getNamedType T, m, l⟩ _ hchk hne hnil ⟨m, allowed, l, hm, hne', hl', rfl⟩ (hl _ hm)
  cases this

/-- **C20** for this phase: neither the order in which the functions were analysed nor the order of methods and codes matters. -/
theorem order_independent_partial {o o' : Orders} (ho : o.Fair) (ho' : o'.Fair) (hone : DeclaredOnce env) {p₁ p₂ : FnId → Plan FnId D}
    {order order' : List FnId} (hp : order.Perm order') {reports reports' : List Report}
    (hl : ∀ c, .check c ∈ steps env info decls → ∀ x ∈ c.methods, MethodSettled env (program p₁ p₂ order) c.source x.1)
    (run : Run env info o decls p₁ p₂ order reports)
    (run' : Run env info o' decls p₁ p₂ order' reports') (r : Report) : r ∈ reports ↔ r ∈ reports' := by
  have he : program p₁ p₂ order = program p₁ p₂ order' := by
    funext x; simp only [program]; congr 1; simp only [hp.mem_iff]
  have h1 := run_spec ho hone run
  have h2 := run_spec ho' hone run'
  rw [← he] at h2
  constructor
  · intro hr
    obtain ⟨c, hc, a, b, m, allowed, l, hm, hne, hex, rfl⟩ := h1.1 r hr
    exact h2.2 _ c hc a b ⟨m, allowed, l, hm, hne, hex.excess (hl c hc _ hm), rfl⟩ (hl c hc _ hm)
  · intro hr
    obtain ⟨c, hc, a, b, m, allowed, l, hm, hne, hex, rfl⟩ := h2.1 r hr
    exact h1.2 _ c hc a b ⟨m, allowed, l, hm, hne, hex.excess (hl c hc _ hm), rfl⟩ (hl c hc _ hm)

/-! ## Chains of conversions -/

/-- The recorded methods `ms` of the interface `I` are what is known about its methods. -/
def Coherent (env : Env) (I : GoType) (ms : List (GoString × CodeSet)) : Prop :=
  ∀ m S, (m, S) ∈ ms → ∃ o S', MethodOf env I m o ∧ env.facts.codes o = some S' ∧ ∀ c, c ∈ S ↔ c ∈ S'

/-- `J` declares no method that `I` does not declare. -/
def Covers (msI msJ : List (GoString × CodeSet)) : Prop := ∀ m S, (m, S) ∈ msJ → ∃ S', (m, S') ∈ msI

/-- **C32**.  What is acceptable for `I` is acceptable for every interface `J` which `I` is acceptable for. -/
theorem transitive_partial {plan : FnId → Plan FnId D} {T I : GoType} {msI msJ : List (GoString × CodeSet)}
    (hI : Coherent env I msI) (hc : Covers msI msJ) (h1 : Acceptable env plan T msI) (h2 : Acceptable env plan I msJ) :
    Acceptable env plan T msJ := by
  intro m S hm c hmc
  obtain ⟨S', hm'⟩ := hc m S hm
  obtain ⟨o, S'', ho, hf, hsame⟩ := hI m S' hm'
  exact h2 m S hm c (.declared ho hf ((hsame c).1 (h1 m S' hm' c hmc)))

/-- Passing through the interfaces of `l`, from `T` on, each acceptable for the next. -/
inductive Chain (env : Env) (plan : FnId → Plan FnId D) : GoType → List (GoType × List (GoString × CodeSet)) → Prop where
  | nil (T) : Chain env plan T []
  | cons {T I ms l} : Acceptable env plan T ms → Chain env plan I l → Chain env plan T ((I, ms) :: l)

/-- **C32**, for chains of any length: nothing is smuggled. -/
theorem chain_partial {plan : FnId → Plan FnId D} : ∀ {l : List (GoType × List (GoString × CodeSet))} {T : GoType},
    Chain env plan T l → (∀ x ∈ l, Coherent env x.1 x.2) → (∀ x ∈ l, ∀ y ∈ l, Covers x.2 y.2) →
    ∀ x ∈ l, Acceptable env plan T x.2
  | _, _, .nil _, _, _, x, hx => (nomatch hx)
  | _, _, .cons (I := I) (ms := ms) (l := l) h hl, hco, hcv, x, hx => by
    rcases List.mem_cons.1 hx with rfl | hx
    · exact h
    · exact transitive_partial (hco (I, ms) (by simp)) (hcv (I, ms) (by simp) x (by simp [hx])) h
        (chain_partial hl (fun y hy => hco y (by simp [hy])) (fun y hy z hz => hcv y (by simp [hy]) z (by simp [hz])) x hx)

/-! ## The checks do not crash -/

/-- The values used as interfaces implement them. -/
def Implements (env : Env) (info : Info) (calls : CallKind) (decls : List TopDecl) : Prop :=
  ∀ T S e ms, ConvertedTo env info calls decls T S e → S ≠ T → S ≠ .untypedNil → IsErrorInterface env T ms →
    ∀ m allowed, (m, allowed) ∈ ms → ∃ ob, MethodOf env S m ob

/-- Part of **C22**: if the functions are analysed without a crash, so are the conversions. -/
theorem no_crash_partial {o : Orders} (ho : o.Fair) (hone : DeclaredOnce env) {p₁ p₂ : FnId → Plan FnId D} {order : List FnId}
    (hp₁ : Plain p₁) (hp₂ : Plain p₂) {U : List FnId} (hU : ClosedIn (program p₁ p₂ order) U) (hm : ∀ m, ∀ f ∈ env.methods m, f ∈ U)
    (hf : Fine env info calls decls) (himp : Implements env info calls decls) {fuel : Nat} {results : List (FnId × CodeSet)}
    {st : Search FnId D} (h : Search.findAll p₁ fuel order Search.start = .ok (results, st)) :
    ∃ reports st', runSteps env o p₂ (U.length + 1) (steps env info decls) st = .ok (reports, st') := by
  have hp : Plain (program p₁ p₂ order) := by
    intro f; unfold program; split
    · exact hp₁ f
    · exact hp₂ f
  have h1 := Search.findAll_specG (G := Settled p₁) settled_closed settled_visits fuel order _ (Search.inv_startG (plan := p₁))
  rw [h] at h1
  obtain ⟨hinv, _, _, hvis⟩ := h1
  have hmix : Search.mixed st p₁ p₂ = program p₁ p₂ order :=
    mixed_program fun x => by rw [hvis]; simp [Search.start, Scc.start, Scc.Vis]
  rw [(runSteps_congr (steps env info decls) st Search.mixed_agree).1, hmix]
  refine runSteps_ok ho hone (fun f => (hp f).1) (fun f => (hp f).2) hU hm (Nat.lt_succ_self _) _ st (hmix ▸ hinv.mixed fun x _ _ => hp₁.noLiteralCycle.settled x)
    (package_checked_partial hf).1 ?_
  rintro ⟨ms, T, S, e⟩ hc hne hnil m allowed hmem
  obtain ⟨h3, h4⟩ := ((package_checked_partial hf).2 ms T S e).1 hc
  exact himp T S e ms h4 hne hnil h3 m allowed hmem

/-! ## Examples

```go
type Box interface { Open() error /* Errors: a */ }   // type 1
type Impl struct{}                                     // type 2; Open declares a, b
type Good struct{}                                     // type 3; Open declares a

func h(b Box, more ...Box) {}

func f(x Good, y Impl) Box {
	var b Box = x
	g := func() Box { return y }
	h(x, x, y)
	return x
}
```
The type of a node is given by its last digit. -/

/-- `Box` = 1, `Impl` = 2, `Good` = 3, `func(Box, ...Box)` = 4. -/
def exType (n : NodeId) : GoType :=
  if n % 10 = 1 then .named 1 else if n % 10 = 2 then .named 2 else if n % 10 = 3 then .named 3
  else if n % 10 = 4 then .signature 4 else .other 0

def exInfo : Info where
  underlying := fun o => if o = 1 then .interface 1 else .struct 0
  params := fun s => if s = 4 then [.named 1, .slice (.named 1)] else []
  variadic := fun s => decide (s = 4)
  tuple := fun _ => []
  fields := fun _ => []
  implements := fun _ _ => true

def exCalls : CallKind := ⟨fun _ => false, fun _ => false⟩

def exLit : Node := .funcLit 150 1 ⟨[], some [⟨[], 21⟩], 0⟩ [.ret 160 [.ident ⟨22, b!"y", none⟩]]

def exBody : List Node :=
  [.valueSpec 100 [⟨110, b!"b", some 0⟩] (some 11) [.ident ⟨13, b!"x", none⟩],
   .assign 130 [.ident ⟨140, b!"g", some 1⟩] [exLit],
   .other 170 [.call 180 (.ident ⟨14, b!"h", none⟩)
     [.ident ⟨23, b!"x", none⟩, .ident ⟨33, b!"x", none⟩, .ident ⟨32, b!"y", none⟩]],
   .ret 190 [.ident ⟨43, b!"x", none⟩]]

def exEnv : Env :=
  { Tracking.plainEnv [] with
    funcs := [⟨0, none, ⟨[], some [⟨[], 31⟩], 0⟩, some exBody, 0, 1000⟩]
    typeOf := exType
    methodSet := fun t m => if m = b!"Open" then
      (match t with | .named 1 => some 10 | .named 2 => some 20 | .named 3 => some 30 | _ => none) else none
    facts := ⟨fun o => if o = 10 then some [b!"a"] else if o = 20 then some [b!"a", b!"b"] else if o = 30 then some [b!"a"] else none,
      fun _ => none, fun _ => none, fun o => if o = 1 then some [(b!"Open", [b!"a"])] else none⟩ }

def exDecls : List TopDecl := [.func 0]
def exOrders : Orders := ⟨id, id, id⟩
def exPlan : FnId → Plan FnId Unit := fun _ => .codes []

theorem exOrders_fair : exOrders.Fair := ⟨fun _ => .refl _, fun _ => .refl _, fun _ => .refl _⟩

/-- Both uses of `y` are reported: as a result of the literal and as a variadic argument. -/
example : (runSteps exEnv exOrders exPlan 1 (steps exEnv exInfo exDecls) Search.start).map Prod.fst =
    .ok [⟨22, some 1, b!"Open", [b!"b"]⟩, ⟨32, some 1, b!"Open", [b!"b"]⟩] := by rfl

/-- The conversions of `x`, in the order they are found. -/
example : (steps exEnv exInfo exDecls).filterMap (fun s => match s with | .check c => some (c.at_, c.source) | _ => none) =
    [(13, .named 3), (22, .named 2), (23, .named 3), (33, .named 3), (32, .named 2), (43, .named 3)] := by rfl

private theorem around_cases {w : Option FuncType} {n m : Node} {w' : Option FuncType} (h : Around w n m w') :
    (m = n ∧ ((∀ id f t b, n ≠ .funcLit id f t b) ∧ w' = w ∨ ∃ id f t b, n = .funcLit id f t b ∧ w' = some t)) ∨
    (∃ c, (∀ id f t b, n ≠ .funcLit id f t b) ∧ c ∈ n.children ∧ Around w c m w') ∨
    ∃ id f t b c, n = .funcLit id f t b ∧ c ∈ b ∧ Around (some t) c m w' := by
  cases h with
  | self h => exact .inl ⟨rfl, .inl ⟨h, rfl⟩⟩
  | lit => exact .inl ⟨rfl, .inr ⟨_, _, _, _, rfl, rfl⟩⟩
  | inside h hc ha => exact .inr (.inl ⟨_, h, hc, ha⟩)
  | body hc ha => exact .inr (.inr ⟨_, _, _, _, _, rfl, hc, ha⟩)

private theorem around_ident {w w' : Option FuncType} {i : Ident} {m : Node} (h : Around w (.ident i) m w') : m = .ident i := by
  rcases around_cases h with ⟨h, -⟩ | ⟨c, -, hc, -⟩ | ⟨_, _, _, _, _, h, -⟩
  · exact h
  · simp [Node.children] at hc
  · cases h

private theorem exFact {T : GoType} {ms : List (GoString × CodeSet)} (h : IsErrorInterface exEnv T ms) :
    getNamedType T = some 1 ∧ ms = [(b!"Open", [b!"a"])] := by
  obtain ⟨o, ho, hf⟩ := h
  simp only [exEnv] at hf
  split at hf
  · rename_i h1; subst h1; cases hf; exact ⟨ho, rfl⟩
  · cases hf

/-- The assumptions hold of the example. -/
theorem exFine : Fine exEnv exInfo exCalls exDecls := by
  have hid : ∀ i w, WellTyped exEnv exInfo exCalls w (.ident i) ∧ Supported exEnv exInfo exCalls w (.ident i) := fun i w => ⟨trivial, trivial⟩
  rintro n w (⟨f, body, n0, hf, hb, hn0, ha⟩ | ⟨n0, hn0, -⟩)
  · simp only [exDecls, List.mem_singleton, TopDecl.func.injEq] at hf
    subst hf
    cases hb
    have hft : (exEnv.func 0).type = ⟨[], some [⟨[], 31⟩], 0⟩ := rfl
    rw [hft] at ha
    simp only [exBody, List.mem_cons, List.not_mem_nil, or_false] at hn0
    rcases hn0 with rfl | rfl | rfl | rfl
    · rcases around_cases ha with ⟨rfl, -⟩ | ⟨c, -, hc, ha⟩ | ⟨_, _, _, _, _, h, -⟩
      · exact ⟨.inr (.inl rfl), trivial⟩
      · simp only [Node.children, List.map_cons, List.map_nil, List.singleton_append, List.mem_cons, List.not_mem_nil, or_false] at hc
        rcases hc with rfl | rfl <;> (rw [around_ident ha]; exact hid _ _)
      · cases h
    · rcases around_cases ha with ⟨rfl, -⟩ | ⟨c, -, hc, ha⟩ | ⟨_, _, _, _, _, h, -⟩
      · exact ⟨.inl rfl, trivial⟩
      · simp only [Node.children, List.singleton_append, List.mem_cons, List.not_mem_nil, or_false] at hc
        rcases hc with rfl | rfl
        · rw [around_ident ha]; exact hid _ _
        · rcases around_cases ha with ⟨rfl, -⟩ | ⟨c, h, -⟩ | ⟨_, _, t, _, _, h, hc, ha⟩
          · exact ⟨trivial, trivial⟩
          · exact absurd rfl (h _ _ _ _)
          · cases h
            simp only [List.mem_singleton] at hc
            subst hc
            rcases around_cases ha with ⟨rfl, hw⟩ | ⟨c, -, hc, ha⟩ | ⟨_, _, _, _, _, h, -⟩
            · rcases hw with ⟨-, rfl⟩ | ⟨_, _, _, _, h, -⟩
              · exact ⟨⟨_, rfl, fun _ => ⟨_, rfl, .inl rfl⟩⟩, fun ft fs h1 h2 _ => by cases h1; cases h2; exact .inr rfl⟩
              · cases h
            · simp only [Node.children, List.mem_singleton] at hc
              subst hc; rw [around_ident ha]; exact hid _ _
            · cases h
      · cases h
    · rcases around_cases ha with ⟨rfl, -⟩ | ⟨c, -, hc, ha⟩ | ⟨_, _, _, _, _, h, -⟩
      · exact ⟨trivial, trivial⟩
      · simp only [Node.children, List.mem_singleton] at hc
        subst hc
        rcases around_cases ha with ⟨rfl, -⟩ | ⟨c, -, hc, ha⟩ | ⟨_, _, _, _, _, h, -⟩
        · refine ⟨.inr (.inr ⟨rfl, 4, rfl, fun _ => ⟨_, rfl, fun ms hms => ?_⟩, .inl ⟨by simp, ?_, by simp [exInfo], by simp [exInfo]⟩⟩), ?_, ?_⟩
          · exact absurd (exFact hms).1 (by simp [getNamedType])
          · intro a ha
            simp only [List.mem_cons, List.not_mem_nil, or_false] at ha
            rcases ha with rfl | rfl | rfl <;> (rintro ⟨t, ht⟩; cases ht)
          · intro h; cases h
          · intro _ s hs
            have : GoType.signature 4 = .signature s := hs
            cases this
            exact ⟨rfl, .inr ⟨rfl, fun a h => by simp at h⟩⟩
        · simp only [Node.children, List.mem_cons, List.not_mem_nil, or_false] at hc
          rcases hc with rfl | rfl | rfl | rfl <;> (rw [around_ident ha]; exact hid _ _)
        · cases h
      · cases h
    · rcases around_cases ha with ⟨rfl, hw⟩ | ⟨c, -, hc, ha⟩ | ⟨_, _, _, _, _, h, -⟩
      · rcases hw with ⟨-, rfl⟩ | ⟨_, _, _, _, h, -⟩
        · exact ⟨⟨_, rfl, fun _ => ⟨_, rfl, .inl rfl⟩⟩, fun ft fs h1 h2 _ => by cases h1; cases h2; exact .inr rfl⟩
        · cases h
      · simp only [Node.children, List.mem_singleton] at hc
        subst hc; rw [around_ident ha]; exact hid _ _
      · cases h
  · simp [exDecls] at hn0

/-- So do those about the functions. -/
example : DeclaredOnce exEnv ∧ NoLiteralCycle (program exPlan exPlan []) ∧ ∀ S m, MethodSettled exEnv (program exPlan exPlan []) S m := by
  have h : NoLiteralCycle (program exPlan exPlan []) := by
    intro f g hg; unfold program at hg; simp [exPlan, Plan.visits] at hg
  exact ⟨fun m f g hf => (nomatch hf), h, methodSettled h⟩

/-- And there is a run. -/
example : Nonempty (Run exEnv exInfo exOrders exDecls exPlan exPlan []
    [⟨22, some 1, b!"Open", [b!"b"]⟩, ⟨32, some 1, b!"Open", [b!"b"]⟩]) :=
  ⟨⟨1, [], Search.start, 1, Search.start, rfl, rfl⟩⟩

/-- `Impl` is not acceptable for `Box`, `Good` is. -/
example : ¬ Acceptable exEnv exPlan (.named 2) [(b!"Open", [b!"a"])] ∧ Acceptable exEnv exPlan (.named 3) [(b!"Open", [b!"a"])] := by
  constructor
  · intro h
    have := h b!"Open" [b!"a"] (by simp) b!"b" (.declared (o := 20) (S := [b!"a", b!"b"]) (.direct rfl) rfl (by simp))
    exact absurd this (by decide)
  · intro m allowed hm c hc
    simp only [List.mem_singleton, Prod.mk.injEq] at hm
    obtain ⟨rfl, rfl⟩ := hm
    have huniq : ∀ o, MethodOf exEnv (.named 3) b!"Open" o → o = 30 := by
      intro o ho
      rw [← searchMethodType_iff] at ho
      have : exEnv.searchMethodType (.named 3) b!"Open" = some 30 := rfl
      rw [this] at ho; cases ho; rfl
    cases hc with
    | declared h1 h2 h3 =>
      have := huniq _ h1; subst this
      cases h2; exact h3
    | found h1 h2 => have := huniq _ h1; subst this; cases h2

/-- `Box` itself is coherent. -/
example : Coherent exEnv (.named 1) [(b!"Open", [b!"a"])] := by
  intro m S h
  simp only [List.mem_singleton, Prod.mk.injEq] at h
  obtain ⟨rfl, rfl⟩ := h
  exact ⟨10, [b!"a"], .direct rfl, rfl, fun c => .rfl⟩

/-! ## What is treated wrongly

The environment of the example, with other pieces of syntax. -/

/-- A method whose package does not declare codes, and which is not declared in this package, is taken to have none: its type is
accepted for every interface (e.g. `*os.File` for an interface with `Close() error` declaring no codes). -/
theorem undeclared_foreign_accepted (S : GoType) (m : GoString) (ob : Object) (allowed : CodeSet) (T : GoType) (e : NodeId)
    (hm : env.searchMethodType S m = some ob) (hf : env.facts.codes ob = none) (hd : env.searchMethod S m = none)
    (o : Orders) (ho : o.Fair) (plan : FnId → Plan FnId D) (fuel : Nat) (st : Search FnId D) :
    runCheck env o plan fuel ⟨[(m, allowed)], T, S, e⟩ st = .ok ([], st) := by
  have h1 : o.methods [(m, allowed)] = [(m, allowed)] := List.perm_singleton.1 (ho.methods _)
  have h2 : o.diff [] = [] := List.perm_nil.1 (ho.diff [])
  unfold runCheck
  split
  · rfl
  · split
    · rfl
    · simp [h1, checkMethods, methodCodes, hm, hf, hd, unexpectedCodes, h2, CodeSet.diff, bind, Except.bind, pure, Except.pure]

/-- Hence passing a value through an interface which has the method without declaring it smuggles any code: `Impl` is accepted for
`interface{ Open() error }` (not an error interface), and that one for `Box`, but `Impl` is not accepted for `Box`. -/
theorem not_transitive :
    let env : Env := { exEnv with
      methodSet := fun t m => if t = .named 5 ∧ m = b!"Open" then some 50 else exEnv.methodSet t m }
    Acceptable env exPlan (.named 2) [] ∧ Acceptable env exPlan (.named 5) [(b!"Open", [b!"a"])] ∧
    ¬ Acceptable env exPlan (.named 2) [(b!"Open", [b!"a"])] := by
  intro env
  refine ⟨fun m a h => (nomatch h), ?_, fun h => ?_⟩
  · intro m allowed hm c hc
    simp only [List.mem_singleton, Prod.mk.injEq] at hm
    obtain ⟨rfl, rfl⟩ := hm
    have huniq : ∀ o, MethodOf env (.named 5) b!"Open" o → o = 50 := by
      intro o ho
      rw [← searchMethodType_iff] at ho
      have : env.searchMethodType (.named 5) b!"Open" = some 50 := rfl
      rw [this] at ho; cases ho; rfl
    cases hc with
    | declared h1 h2 => have := huniq _ h1; subst this; cases h2
    | found h1 h2 h3 => exact nomatch h3.1
  · have := h b!"Open" [b!"a"] (by simp) b!"b" (.declared (o := 20) (S := [b!"a", b!"b"]) (.direct rfl) rfl (by simp))
    exact absurd this (by decide)

/-- The argument of a call of a function of a named function type is not checked (type 6 is `type F func(Box)`, underlying type 7). -/
theorem named_function_type_unchecked :
    let env : Env := { exEnv with typeOf := fun n => if n = 6 then .named 6 else exType n }
    let info : Info := { exInfo with underlying := fun o => if o = 6 then .signature 7 else exInfo.underlying o,
                                     params := fun s => if s = 7 then [.named 1] else [] , variadic := fun _ => false}
    let call : Node := .call 100 (.ident ⟨6, b!"f", none⟩) [.ident ⟨12, b!"y", none⟩]
    Converts env info exCalls none call (.named 1) (.named 2) 12 ∧ atNode env info none call = [] := by
  intro env info call
  exact ⟨.argument (env := env) (info := info) (s := 7) (i := 0) (a := .ident ⟨12, b!"y", none⟩) rfl rfl rfl (fun h => by cases h) rfl
    (by rintro ⟨t, ht⟩; cases ht), rfl⟩

/-- A conversion to a function type with two parameters makes the analyzer crash (`(func(Box, ...Box))(x)`). -/
theorem conversion_to_function_type_crashes :
    .panic "index out of range" ∈ atNode exEnv { exInfo with params := fun _ => [.named 1, .named 1], variadic := fun _ => false } none
      (.call 100 (.ident ⟨14, b!"f", none⟩) [.ident ⟨10, b!"g", none⟩]) := by decide +kernel

/-- `h(x, xs...)`: the slice is checked as if it were a `Box`, which crashes since `[]Box` has no methods. -/
theorem spread_crashes :
    let env : Env := { exEnv with typeOf := fun n => if n = 5 then .slice (.named 1) else exType n }
    let call : Node := .call 100 (.ident ⟨14, b!"h", none⟩) [.ident ⟨13, b!"x", none⟩, .ident ⟨5, b!"xs", none⟩]
    ∃ loc, (runSteps env exOrders exPlan 1 (atNode env exInfo none call) Search.start).map Prod.fst = .error (.panic loc) := by
  exact ⟨_, rfl⟩

/-- `h(g())` where `g` returns two values crashes. -/
theorem forwarded_results_crash :
    let env : Env := { exEnv with typeOf := fun n => if n = 5 then .tuple 0 else exType n }
    let info : Info := { exInfo with params := fun _ => [.other 0, .named 1], variadic := fun _ => false }
    .panic "index out of range" ∈ atNode env info none (.call 100 (.ident ⟨14, b!"h", none⟩) [.call 5 (.ident ⟨0, b!"g", none⟩) []]) := by
  decide +kernel

/-- So does `return g()` in a function with results `(int, Box)`. -/
theorem forwarded_return_crashes :
    let env : Env := { exEnv with typeOf := fun n => if n = 5 then .tuple 0 else exType n }
    .panic "index out of range" ∈ atNode env exInfo (some ⟨[], some [⟨[], 0⟩, ⟨[], 1⟩], 0⟩)
      (.ret 100 [.call 5 (.ident ⟨0, b!"g", none⟩) []]) := by
  decide +kernel

/-- Iterating over a value of type `type P *[2]Box`, or of type `*A` where `A` is declared as a `type A [2]Box` and `P` as `*A`, crashes. -/
theorem range_over_named_pointer_crashes :
    let env : Env := { exEnv with typeOf := fun n => if n = 5 then .named 5 else exType n }
    let info : Info := { exInfo with underlying := fun o => if o = 5 then .pointer (.named 8) else if o = 8 then .array (.named 1) else exInfo.underlying o }
    let loop : Node := .range 100 (some (.ident ⟨0, b!"_", none⟩)) (some (.ident ⟨1, b!"b", none⟩)) (.ident ⟨5, b!"p", none⟩) []
    Converts env info exCalls none loop (.named 1) (.named 1) 5 ∧ .panic "interface conversion" ∈ atNode env info none loop := by
  intro env info loop
  refine ⟨.rangeValue (.inr (.inr (.inr ⟨.named 8, rfl, rfl⟩))), by decide +kernel⟩

/-- The elements of literals of a pointer to an unnamed type are not checked: the inner literal in `[]*struct{ b Box }{{y}}`. -/
theorem literal_of_unnamed_pointer_unchecked :
    let env : Env := { exEnv with typeOf := fun n => if n = 5 then .pointer (.struct 5) else exType n }
    let info : Info := { exInfo with fields := fun _ => [(b!"b", .named 1)] }
    let lit : Node := .compositeLit 5 [.ident ⟨12, b!"y", none⟩]
    Converts env info exCalls none lit (.named 1) (.named 2) 12 ∧ atNode env info none lit = [] := by
  intro env info lit
  exact ⟨.field (n := 5) (name := b!"b") (i := 0) (e := .ident ⟨12, b!"y", none⟩) rfl rfl rfl (by intros; simp), rfl⟩

/-- Asserting that an interface value holds a `*Box` (a pointer to an interface) is checked, although nothing is converted. -/
theorem pointer_assertion_checked :
    let env : Env := { exEnv with typeOf := fun n => if n = 5 then .pointer (.named 1) else exType n }
    let info : Info := exInfo
    let assertion : Node := .typeAssert 100 (.ident ⟨12, b!"y", none⟩) (some 5)
    (∀ T S e, ¬ Converts env info exCalls none assertion T S e) ∧
    .check ⟨[(b!"Open", [b!"a"])], .pointer (.named 1), .named 2, 12⟩ ∈ atNode env info none assertion := by
  intro env info assertion
  refine ⟨?_, by decide +kernel⟩
  have key : ∀ n T S e, n = .typeAssert 100 (.ident ⟨12, b!"y", none⟩) (some 5) → ¬ Converts env info exCalls none n T S e := by
    intro n T S e hn h
    cases h <;> try (cases hn; done)
    rename_i h1 _
    cases hn
    cases h1
  exact fun T S e => key _ T S e rfl

end Serum.Props.Conversions
