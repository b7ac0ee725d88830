import Verif.Sound
import Verif.SimpleScope

/-!
# C24: silence means truth

If the analysis reports nothing about a function and the functions it may call, every code returned at run time is empty or among the codes found
for the function (or the error code argument it was called with).  The run time semantics is
`Spec/Runtime.lean`, the programs for which the claim is made `Spec/Supported.lean`.
-/

namespace Serum.Props.Soundness
open Flow Analyse Runtime Props.Calls Props.Extract Props.Claims

variable {env : Env} {X : Extra} {fuel : Nat}

/-- The function is one for which the claim is made. -/
def InScope (env : Env) (X : Extra) (f : FnId) : Prop :=
  ∃ body, Regular env f body ∧ Separate env f body ∧ Parsed env X f body ∧ Supported env X f body

theorem fine_of_silent (hf : bound env ≤ fuel) (hp : PrintsAscii env.isPrint)
    {depth : Nat} {order : List FnId} {results : List (FnId × CodeSet)} {st : Search FnId Diag}
    (h : Search.findAll (plan env fuel) depth order Search.start = .ok (results, st))
    {f : FnId} (hsil : CallGraph.diagnosticsOf st f = []) (hr : ∃ f₀ ∈ order, Reach (Calls (plan env fuel)) f₀ f) (hs : InScope env X f) :
    ∃ body, Fine env X fuel f body := by
  obtain ⟨body, h1, h2, h3, h4⟩ := hs
  refine ⟨body, hf, hp, h1, h2, h3, h4, ?_, CallGraph.no_panics h hr⟩
  rw [← (CallGraph.body_once h f).1 hr, hsil]

/-- **C24**, partial.  Consider a run over the functions `order`, and one of these functions, such that nothing is reported about this
function and those it may call, and they are in scope.  Whenever the function, called with error code argument `arg`, returns a
(non-nil) error `o`, then every code of `o` is empty, or found for the function, or it is the argument (for an
error constructor).

Missing: the programs excluded by `Supported`, by `Separate` and `Regular` and by `Settled`: for them the
claim is false of the code (witnesses below, and in `CallGraph`, `Bodies`, `Tracking`). -/
theorem silent_run_sound_partial (hf : bound env ≤ fuel)
    (hp : PrintsAscii env.isPrint) (hforeign : ForeignStores X) (hpromise : Promises env X)
    {depth : Nat} {order : List FnId} {results : List (FnId × CodeSet)} {st : Search FnId Diag}
    (h : Search.findAll (plan env fuel) depth order Search.start = .ok (results, st)) {f : FnId}
    (hsil : ∀ g, Reach (Calls (plan env fuel)) f g → CallGraph.diagnosticsOf st g = [])
    (hs : ∀ g, Reach (Calls (plan env fuel)) f g → InScope env X g)
    (hl : CallGraph.Settled (plan env fuel) f) {S : CodeSet} (hS : (f, S) ∈ results) {arg : GoString} {o : Obj} (ho : Yields env X (.ret f arg) o)
    {c : GoString} (hc : o.may c) :
    c = [] ∨ c ∈ S ∨ (importErrorConstructorFact env f ≠ none ∧ c = arg) := by
  have hmem : f ∈ order := by
    rw [← (CallGraph.codes_are_least_partial h).1]
    exact List.mem_map.2 ⟨_, hS, rfl⟩
  have := sound (P := fun g => Reach (Calls (plan env fuel)) f g)
    (fun g hr => fine_of_silent hf hp h (hsil g hr) ⟨f, hmem, hr⟩ (hs g hr))
    (fun _ g h hc => h.trans (.step hc (.refl g))) hforeign hpromise ho (.refl f) c hc
  rwa [← (CallGraph.codes_are_least_partial h).2 f S hS hl c] at this

/-- **C24**, partial, in terms of the declaration: if moreover the comparison of found and declared codes reports
nothing, then the code is empty, or declared, or the error code argument. -/
theorem silent_run_declared_partial (hf : bound env ≤ fuel)
    (hp : PrintsAscii env.isPrint) (hforeign : ForeignStores X) (hpromise : Promises env X)
    {depth : Nat} {order : List FnId} {results : List (FnId × CodeSet)} {st : Search FnId Diag}
    (h : Search.findAll (plan env fuel) depth order Search.start = .ok (results, st)) {f : FnId}
    (hsil : ∀ g, Reach (Calls (plan env fuel)) f g → CallGraph.diagnosticsOf st g = [])
    (hs : ∀ g, Reach (Calls (plan env fuel)) f g → InScope env X g)
    (hl : CallGraph.Settled (plan env fuel) f) {S claimed : CodeSet} (hS : (f, S) ∈ results) {orders : MatchOrders} (ho' : Reports.AllOrders orders)
    (hmatch : (checkIfErrorCodesMatch orders S claimed).1 = true)
    {arg : GoString} {o : Obj} (ho : Yields env X (.ret f arg) o) {c : GoString} (hc : o.may c) :
    c = [] ∨ c ∈ claimed ∨ (importErrorConstructorFact env f ≠ none ∧ c = arg) := by
  rcases silent_run_sound_partial hf hp hforeign hpromise h hsil hs hl hS ho hc with h' | h' | h'
  · exact .inl h'
  · exact .inr (.inl (((Reports.mismatch_exact orders ho' S claimed).1.1 hmatch c).1 h'))
  · exact .inr (.inr h')

/-! ## Example

```go
type Err struct{ TheCode string } // Code() returns TheCode
func F() error {
	err := New("a-error")
	err.TheCode = "b-error"
	if … { return g() }
	return err
}
// Errors:
//   - param: code
func New(code string) *Err { return &Err{code} }
func g() error { return &Err{"c-error"} }
```

Objects: `err` 0, `code` 1, `New` 2, `g` 3; functions: `F` 0, `New` 1, `g` 2. -/

def newErr : Node := .assign 1 [.ident ⟨2, b!"err", some 0⟩] [.call 3 (.ident ⟨4, b!"New", some 2⟩) [.basicLit 5]]
def setCode : Node := .assign 10 [.selector 11 (.ident ⟨12, b!"err", some 0⟩) ⟨13, b!"TheCode", none⟩] [.basicLit 14]
def retG : Node := .ret 20 [.call 21 (.ident ⟨22, b!"g", some 3⟩) []]
def retErr : Node := .ret 30 [.ident ⟨31, b!"err", some 0⟩]
def bodyF : List Node := [newErr, setCode, .other 15 [retG], retErr]
def bodyNew : List Node := [.ret 40 [.unary 41 true (.compositeLit 42 [.ident ⟨43, b!"code", some 1⟩])]]
def bodyG : List Node := [.ret 50 [.unary 51 true (.compositeLit 52 [.basicLit 53])]]

def errT : ErrorType := ⟨[], some ⟨b!"TheCode", 0⟩⟩

def exEnv : Env :=
  { Tracking.plainEnv [⟨.var, 30, .other⟩, ⟨.var, 105, .other⟩, ⟨.fun_, 101, .funcDecl 1⟩, ⟨.fun_, 201, .funcDecl 2⟩] with
    funcs := [⟨100, some ⟨101, b!"F", none⟩, ⟨[], some [⟨[], 11⟩], 10⟩, some bodyF, 20, 100⟩,
      ⟨102, some ⟨103, b!"New", none⟩, ⟨[⟨[⟨104, b!"code", some 1⟩], 105⟩], some [⟨[], 106⟩], 110⟩, some bodyNew, 120, 200⟩,
      ⟨107, some ⟨108, b!"g", none⟩, ⟨[], some [⟨[], 109⟩], 210⟩, some bodyG, 220, 300⟩]
    funcObj := fun f => 70 + f
    callee := fun n => if n = 3 then some 71 else if n = 21 then some 72 else none
    typeOf := fun _ => .pointer (.named 7)
    implCode := fun t => t == .pointer (.named 7)
    value := fun n => if n = 5 then some (.str b!"a-error") else if n = 14 then some (.str b!"b-error")
      else if n = 53 then some (.str b!"c-error") else none
    facts := ⟨fun _ => none, fun o => if o = 71 then some 0 else none, fun o => if o = 7 then some errT else none, fun _ => none⟩ }

def exExtra : Extra where
  conversion := fun _ => false
  shift := fun _ => 0
  op := fun _ => false
  codeField := fun n => if n = 11 then some errT else none
  deref := fun _ => false
  deferred := fun _ => false
  foreign := fun _ _ => False
  declared := fun _ _ o => o = ⟨errT, b!"a-error"⟩

/-- The run is silent. -/
theorem ex_run : ∃ st, Search.findAll (plan exEnv (bound exEnv)) 4 [0] Search.start =
    .ok ([(0, [b!"c-error", b!"a-error", b!"b-error"])], st) ∧ st.diags = [] := ⟨_, rfl, rfl⟩

theorem ex_returns (body : List Node) (id : NodeId) (results : List Node) :
    Returns exEnv body id results ↔ WithinList ofFunction (.ret id results) body :=
  ⟨fun h => h.1, fun h => ⟨h, fun a ha => by simp [exEnv, Tracking.plainEnv, getReturnStmtAnnotations] at ha⟩⟩

theorem ex_separate (f : FnId) (body : List Node) : Separate exEnv f body := by
  intro _ _ _ _ _ _ _ _ _ _
  simp [Removed, exEnv, Tracking.plainEnv, getReturnStmtAnnotations]

theorem ex_errVar : ErrVar exEnv 0 bodyF 0 := by
  refine ⟨.ident ⟨31, b!"err", some 0⟩, ⟨31, b!"err", some 0⟩, .root ⟨30, [.ident ⟨31, b!"err", some 0⟩], ?_, .inl rfl⟩,
    .inl rfl, rfl, by decide, .inr ⟨.inr ⟨0, rfl, by decide, by decide⟩, fun o _ => simple_noLit (env := exEnv) (by decide) o⟩⟩
  rw [ex_returns]
  exact ⟨retErr, by simp [bodyF], .self⟩

theorem ex_F : InScope exEnv exExtra 0 := by
  refine ⟨bodyF, .of_simple rfl (by decide) rfl, ex_separate _ _, simpleScope_parsed (by decide), simpleScope_supported (by decide) ?_⟩
  intro id lhs rhs k l sid y sel et ho hl hu hcf
  rw [Occurs, ← mem_inspectList] at ho
  simp only [bodyF, newErr, setCode, retG, retErr, Node.inspectList, Node.inspect, if_true, List.cons_append, List.nil_append,
    List.append_nil, List.mem_cons, List.not_mem_nil, or_false, reduceCtorEq, false_or, Node.assign.injEq] at ho
  rcases ho with ⟨rfl, rfl, rfl⟩ | ⟨rfl, rfl, rfl⟩
  · cases k with
    | zero => cases hl; cases hu
    | succ k => cases hl
  · cases k with
    | zero =>
      cases hl
      cases hu
      simp [exExtra] at hcf
      subst hcf
      refine ⟨⟨setCode, by simp [bodyF], .self⟩, rfl, _, 0, ⟨b!"TheCode", 0⟩, rfl, rfl, ex_errVar, ?_, rfl, rfl⟩
      intro id lhs rhs _ sid i sel _ _; exact ⟨_, rfl, rfl⟩
    | succ k => cases hl

theorem ex_G : InScope exEnv exExtra 2 := by
  refine ⟨bodyG, .of_simple rfl (by decide) rfl, ex_separate _ _, simpleScope_parsed (by decide), simpleScope_supported (by decide) ?_⟩
  intro id lhs rhs k l sid y sel et ho
  rw [Occurs, ← mem_inspectList] at ho
  simp [bodyG, Node.inspectList, Node.inspect] at ho

theorem ex_New : InScope exEnv exExtra 1 := by
  have hs : simple exEnv bodyNew = true := by decide
  refine ⟨bodyNew, ⟨rfl, ⟨(Props.Tracking.scope_of_noLits _ _ (simple_noLit hs)).1,
    fun _ i _ _ => (Props.Tracking.scope_of_noLits _ _ (simple_noLit hs)).2 i⟩, ⟨?_, ?_⟩, ?_, ?_⟩,
    ex_separate _ _, simpleScope_parsed (by decide), simpleScope_supported (by decide) ?_⟩
  · intro id fn type b ho; have := simple_node hs ho; simp [simpleNode] at this
  · intro id lhs rhs ho
    rw [Occurs, ← mem_inspectList] at ho
    simp [bodyNew, Node.inspectList, Node.inspect] at ho
  · exact ⟨fun _ => 0, fun _ => Nat.zero_le _, fun x e i o hk hs' _ _ => absurd (simple_source hs hs').2 hk⟩
  · intro position hp
    have : position = 0 := by
      have h : importErrorConstructorFact exEnv 1 = some 0 := by decide
      rw [h] at hp; cases hp; rfl
    subst this
    decide
  · intro id lhs rhs k l sid y sel et ho
    rw [Occurs, ← mem_inspectList] at ho
    simp [bodyNew, Node.inspectList, Node.inspect] at ho

theorem ex_calls : (plan exEnv (bound exEnv) 0).targets = [2, 1] ∧ (plan exEnv (bound exEnv) 1).targets = [] ∧
    (plan exEnv (bound exEnv) 2).targets = [] := ⟨rfl, rfl, rfl⟩

theorem ex_noCycle : CallGraph.NoLiteralCycle (plan exEnv (bound exEnv)) := by
  intro f g hg
  match f with
  | 0 => rw [show (plan exEnv (bound exEnv) 0).visits = [] from by rfl] at hg; cases hg
  | 1 => rw [show (plan exEnv (bound exEnv) 1).visits = [] from by rfl] at hg; cases hg
  | 2 => rw [show (plan exEnv (bound exEnv) 2).visits = [] from by rfl] at hg; cases hg
  | f + 3 => simp [plan, bodyPlan, Env.func, exEnv, Plan.visits] at hg

theorem ex_reach {f g : FnId} (h : Reach (Calls (plan exEnv (bound exEnv))) f g) (hf : f < 3) : g < 3 := by
  induction h with
  | refl => exact hf
  | step hc _ ih =>
    refine ih ?_
    unfold Calls at hc
    rename_i f' g' _ _
    have three : ∀ n : Nat, n < 3 → n = 0 ∨ n = 1 ∨ n = 2 := by omega
    rcases three f' hf with rfl | rfl | rfl
    · rw [ex_calls.1] at hc
      simp only [List.mem_cons, List.not_mem_nil, or_false] at hc
      rcases hc with rfl | rfl <;> decide
    · rw [ex_calls.2.1] at hc; simp at hc
    · rw [ex_calls.2.2] at hc; simp at hc

/-- The hypotheses of `silent_run_sound_partial` hold for the example … -/
theorem ex_sound {arg : GoString} {o : Obj} (ho : Yields exEnv exExtra (.ret 0 arg) o) {c : GoString} (hc : o.may c) :
    c = [] ∨ c ∈ [b!"c-error", b!"a-error", b!"b-error"] := by
  obtain ⟨st, hrun, hsil⟩ := ex_run
  have hscope : ∀ f, Reach (Calls (plan exEnv (bound exEnv))) 0 f → InScope exEnv exExtra f := by
    intro f hr
    have := ex_reach hr (by decide)
    match f, this with
    | 0, _ => exact ex_F
    | 1, _ => exact ex_New
    | 2, _ => exact ex_G
  rcases silent_run_sound_partial (env := exEnv) (X := exExtra) (fuel := bound exEnv) (Nat.le_refl _) (fun r _ => rfl) (fun _ _ h => False.elim h) nofun hrun
    (fun g _ => by simp [CallGraph.diagnosticsOf, hsil]) hscope
    (ex_noCycle.settled 0) (List.mem_singleton.2 rfl) ho hc with h | h | ⟨h, -⟩
  · exact .inl h
  · exact .inr h
  · exact absurd (by decide) h

/-- … and it can return each of the codes. -/
example : Yields exEnv exExtra (.ret 0 []) ⟨errT, b!"a-error"⟩ ∧ Yields exEnv exExtra (.ret 0 []) ⟨errT, b!"b-error"⟩ ∧
    Yields exEnv exExtra (.ret 0 []) ⟨errT, b!"c-error"⟩ := by
  have honest : ∀ id o, Honours exEnv id o := fun id o a ha => by
    simp [exEnv, Tracking.plainEnv, getReturnStmtAnnotations] at ha
  have errVar : Yields exEnv exExtra (.var 0 bodyF [] 0) ⟨errT, b!"a-error"⟩ := by
    refine .assigned (e := .call 3 (.ident ⟨4, b!"New", some 2⟩) [.basicLit 5])
      (.inr ⟨1, _, _, ⟨newErr, by simp [bodyF], .self⟩, rfl, 0, _, _, rfl, rfl, rfl, rfl⟩) ?_
    refine .called rfl (.own (g := 1) (a := b!"a-error") rfl ?_ (.inl ⟨_, 2, rfl, rfl, rfl⟩) ?_ ?_)
    · rintro ⟨q, S, -, h⟩; cases h
    · intro p hp e he
      have h : importErrorConstructorFact exEnv 1 = some 0 := by decide
      rw [h] at hp; cases hp
      cases he
      exact .constant rfl
    · refine .returned (body := bodyNew) (id := 40) rfl ⟨_, List.mem_singleton.2 rfl, .self⟩ (.inl rfl) (.pointerLiteral rfl rfl rfl ?_) (honest _ _)
      intro fd hfd
      cases hfd
      refine .inr (.inl ⟨by simp, _, rfl, .read (by simp [exEnv, Node.id]) rfl rfl (.argument ⟨0, _, by decide, rfl, rfl⟩)⟩)
  refine ⟨?_, ?_, ?_⟩
  · exact .returned rfl ⟨retErr, by simp [bodyF], .self⟩ (.inl rfl) (.read rfl rfl errVar) (honest _ _)
  · refine .returned rfl ⟨retErr, by simp [bodyF], .self⟩ (.inl rfl) (.read rfl rfl (.stored (o := ⟨errT, b!"a-error"⟩) errVar
      (.assigned (id := 10) (k := 0) (sid := 11) ⟨setCode, by simp [bodyF], .self⟩ rfl rfl rfl rfl rfl rfl (.constant rfl)))) (honest _ _)
  · refine .returned (id := 20) rfl ⟨.other 15 [retG], by simp [bodyF], .child (c := retG) rfl (by simp [Node.children]) .self⟩ (.inl rfl)
      (.called rfl (.own (g := 2) (a := []) rfl ?_ (.inl ⟨_, 3, rfl, rfl, rfl⟩) ?_ ?_)) (honest _ _)
    · rintro ⟨q, S, -, h⟩; cases h
    · intro p hp; rw [show importErrorConstructorFact exEnv 2 = none from by decide] at hp; cases hp
    · refine .returned (body := bodyG) (id := 50) rfl ⟨_, List.mem_singleton.2 rfl, .self⟩ (.inl rfl) (.pointerLiteral rfl rfl rfl ?_) (honest _ _)
      intro fd hfd
      cases hfd
      exact .inr (.inl ⟨by simp, _, rfl, .constant rfl⟩)

end Serum.Props.Soundness
