import Verif.BodyCrash
import Verif.SimpleExprs

/-!
# C22: when the analysis of function bodies panics

Which constructs in a function body make the analyzer panic, exactly (`body_exact`), and when the search over all functions
succeeds (`search_exact`, `search_succeeds_partial`).
-/

namespace Serum.Props.Crash
open Flow Taint Analyse CallGraph

/-- **C22**, for one body, exactly: looking at it panics if and only if one of three constructs is in error position: a call of an error
constructor with too few argument expressions, a destructuring assignment that is neither a type assertion nor a call of a function
type written as such, or an assignment to two fields at once of an error without code field. -/
theorem body_exact {env : Env} {f : FnId} {body : List Node} (h : Regular env f body) (hc : Checked env f body) {fuel : Nat}
    (hf : bound env ≤ fuel) : (plan env fuel f).panics = true ↔ Crashes env f body := h.panics_iff hc hf

/-- A function without body (implemented in assembly) that comes up makes the analyzer panic. -/
theorem no_body {env : Env} {f : FnId} {fuel : Nat} (h : (env.func f).body = none) : (plan env fuel f).panics = true := by
  simp [plan, bodyPlan, h, Plan.panics]

/-- What parser, type checker and scoping guarantee for all functions that come up. -/
def AllChecked (env : Env) (fuel : Nat) (order : List FnId) : Prop :=
  ∀ f body, (∃ r ∈ order, Reach (Calls (plan env fuel)) r f) → (env.func f).body = some body → Regular env f body ∧ Checked env f body

/-- **C22**, for the search over all functions, exactly: it ends without a panic if and only if every function that comes up has a body
without crashing construct, and no literal is found twice as the value of a called variable. -/
theorem search_exact (env : Env) {fuel : Nat} (hf : bound env ≤ fuel) {order : List FnId} (hc : AllChecked env fuel order)
    (hv : ValuesUncalled (plan env fuel) order) :
    ∃ depth, ((∃ r, Search.findAll (plan env fuel) depth order Search.start = .ok r) ↔
      ∀ f, (∃ r ∈ order, Reach (Calls (plan env fuel)) r f) → (∃ body, (env.func f).body = some body ∧ ¬ Crashes env f body) ∧
        (plan env fuel f).visits.Nodup ∧
        ∀ g, (∃ r ∈ order, Reach (Calls (plan env fuel)) r g) → g ≠ f → ∀ z ∈ (plan env fuel f).visits, z ∉ (plan env fuel g).visits) := by
  refine ⟨_, (succeeds_iff (Bodies.closed_in env fuel order) (fun f hf => by simp [hf]) hv).trans ?_⟩
  refine forall_congr' fun f => forall_congr' fun hr => and_congr_left fun _ => ?_
  cases hb : (env.func f).body with
  | none => simp [no_body hb]
  | some body =>
    obtain ⟨h1, h2⟩ := hc f body hr hb
    have := body_exact h1 h2 hf
    constructor
    · intro h; exact ⟨body, rfl, fun hc => by rw [this.2 hc] at h; cases h⟩
    · rintro ⟨b, hb', h⟩
      cases hb'
      cases hp : (plan env fuel f).panics with
      | false => rfl
      | true => exact absurd (this.1 hp) h

/-- **C22.**  If every function that comes up has a body without crashing construct and calls no local variables in error position,
then the search succeeds. -/
theorem search_succeeds_partial (env : Env) {fuel : Nat} (hf : bound env ≤ fuel) {order : List FnId} (hc : AllChecked env fuel order)
    (h : ∀ f, (∃ r ∈ order, Reach (Calls (plan env fuel)) r f) → ∃ body, (env.func f).body = some body ∧ ¬ Crashes env f body ∧
      ∀ id fn args, Calls.ErrCall env f body id fn args → ¬ IsVariable env fn) :
    ∃ depth r, Search.findAll (plan env fuel) depth order Search.start = .ok r := by
  have hvis : ∀ f, (∃ r ∈ order, Reach (Calls (plan env fuel)) r f) → (plan env fuel f).visits = [] := fun f hr => by
    obtain ⟨body, hb, -, hn⟩ := h f hr
    exact (hc f body hr hb).1.no_visits hf hn
  have hs : Search.Safe (plan env fuel) fun f => ∃ r ∈ order, Reach (Calls (plan env fuel)) r f := by
    refine ⟨fun x ⟨r, hr, hx⟩ y hy => ⟨r, hr, hx.snoc hy⟩, fun x hx => ?_, fun x hx => by rw [hvis x hx]; exact List.nodup_nil,
      fun x y z hx _ hz => by (rw [hvis x hx] at hz; cases hz), fun x y z hx _ hz => by (rw [hvis x hx] at hz; cases hz)⟩
    obtain ⟨body, hb, hcr, -⟩ := h x hx
    cases hp : (plan env fuel x).panics with
    | false => rfl
    | true => exact absurd ((body_exact (hc x body hx hb).1 (hc x body hx hb).2 hf).1 hp) hcr
  have h1 := Search.findAll_safe hs ((order ++ Bodies.allFunctions env fuel ++ order.flatMap fun f => (plan env fuel f).targets).length + 1)
    order Search.start (fun f hf => ⟨f, hf, .refl f⟩)
    (fun f hf g hg hz => by rw [hvis g hg] at hz; cases hz) (by simp [Search.start, Scc.start, Scc.Vis])
    (fun f z _ _ hz => by simp [Search.start, Scc.start, Scc.Vis] at hz)
  have h2 := terminates (Bodies.closed_in env fuel order) (order := order) (fun f hf => by simp [hf])
  unfold Search.OkOr at h1
  split at h1
  · rename_i a ha; exact ⟨_, a, ha⟩
  · rename_i e he; rw [he, h1] at h2; exact absurd rfl h2

/-! ## Witnesses: the constructs occur in valid programs

```go
func A(m map[string]error) error { err, _ := m["k"]; return err }
type Fn func() (int, error)
func B(g Fn) error { _, err := g(); return err }
func C() error { e := &Err{}; e.a, e.b = 1, 2; return e }    // Err: constant Code(), no code field
func D() error                                               // implemented in assembly
func E() error { err := A(nil); return err }                 // fine by itself, but calls A
func F() error { return pkg.New(args()) }                    // args returns two values; New takes the code as second parameter
func G() error { e := &Err{}; e.a = 1; return e }            // fine
```
-/

def bodyA : List Node :=
  [.assign 1 [.ident ⟨2, b!"err", some 0⟩, .ident ⟨3, b!"_", none⟩] [.index 4 (.ident ⟨5, b!"m", some 1⟩) (.basicLit 6)],
   .ret 7 [.ident ⟨8, b!"err", some 0⟩]]

def bodyB : List Node :=
  [.assign 11 [.ident ⟨12, b!"_", none⟩, .ident ⟨13, b!"err", some 2⟩] [.call 14 (.ident ⟨15, b!"g", some 3⟩) []],
   .ret 17 [.ident ⟨18, b!"err", some 2⟩]]

def bodyC : List Node :=
  [.assign 21 [.ident ⟨22, b!"e", some 4⟩] [.unary 23 true (.compositeLit 24 [])],
   .assign 25 [.selector 26 (.ident ⟨27, b!"e", some 4⟩) ⟨28, b!"a", none⟩, .selector 29 (.ident ⟨30, b!"e", some 4⟩) ⟨31, b!"b", none⟩]
     [.basicLit 32, .basicLit 33],
   .ret 34 [.ident ⟨35, b!"e", some 4⟩]]

def bodyE : List Node :=
  [.assign 41 [.ident ⟨42, b!"err", some 5⟩] [.call 43 (.ident ⟨44, b!"A", some 6⟩) [.ident ⟨45, b!"nil", none⟩]],
   .ret 46 [.ident ⟨47, b!"err", some 5⟩]]

def bodyF : List Node :=
  [.ret 51 [.call 52 (.selector 53 (.ident ⟨54, b!"pkg", none⟩) ⟨55, b!"New", none⟩) [.call 56 (.ident ⟨57, b!"args", none⟩) []]]]

def bodyG : List Node :=
  [.assign 61 [.ident ⟨62, b!"e", some 7⟩] [.unary 63 true (.compositeLit 64 [])],
   .assign 65 [.selector 66 (.ident ⟨67, b!"e", some 7⟩) ⟨68, b!"a", none⟩] [.basicLit 69],
   .ret 70 [.ident ⟨71, b!"e", some 7⟩]]

def exEnv : Env :=
  { Tracking.plainEnv [⟨.var, 30, .other⟩, ⟨.var, 5, .other⟩, ⟨.var, 130, .other⟩, ⟨.var, 105, .other⟩, ⟨.var, 230, .other⟩,
      ⟨.var, 430, .other⟩, ⟨.fun_, 1, .funcDecl 0⟩, ⟨.var, 630, .other⟩] with
    funcs := [⟨100, some ⟨101, b!"A", none⟩, ⟨[], some [⟨[], 11⟩], 10⟩, some bodyA, 20, 100⟩,
      ⟨102, some ⟨103, b!"B", none⟩, ⟨[], some [⟨[], 11⟩], 110⟩, some bodyB, 120, 200⟩,
      ⟨104, some ⟨105, b!"C", none⟩, ⟨[], some [⟨[], 11⟩], 210⟩, some bodyC, 220, 300⟩,
      ⟨106, some ⟨107, b!"D", none⟩, ⟨[], some [⟨[], 11⟩], 310⟩, none, 0, 0⟩,
      ⟨108, some ⟨109, b!"E", none⟩, ⟨[], some [⟨[], 11⟩], 410⟩, some bodyE, 420, 500⟩,
      ⟨110, some ⟨111, b!"F", none⟩, ⟨[], some [⟨[], 11⟩], 510⟩, some bodyF, 520, 600⟩,
      ⟨112, some ⟨113, b!"G", none⟩, ⟨[], some [⟨[], 11⟩], 610⟩, some bodyG, 620, 700⟩]
    typeOf := fun n => if n = 15 then .named 80 else if n ∈ [22, 27, 30, 35, 23, 62, 67, 71, 63] then .pointer (.named 81) else
      if n = 24 ∨ n = 64 then .named 81 else .other 0
    implCode := fun t => t = .pointer (.named 81)
    callee := fun n => if n = 43 then some 90 else if n = 52 then some 91 else none
    pkgName := fun n => if n = 54 then some b!"pkg" else none
    selection := fun n => if n ∈ [26, 29, 66] then some (.pointer (.named 81), 0) else none
    facts := ⟨fun _ => none, fun o => if o = 91 then some 1 else none, fun o => if o = 81 then some ⟨[b!"a-error"], none⟩ else none,
      fun _ => none⟩ }

theorem exRegular : Regular exEnv 0 bodyA ∧ Regular exEnv 1 bodyB ∧ Regular exEnv 2 bodyC ∧ Regular exEnv 4 bodyE ∧
    Regular exEnv 5 bodyF ∧ Regular exEnv 6 bodyG :=
  ⟨.of_simple rfl (by decide) rfl, .of_simple rfl (by decide) rfl, .of_simple rfl (by decide) rfl, .of_simple rfl (by decide) rfl,
    .of_simple rfl (by decide) rfl, .of_simple rfl (by decide) rfl⟩

/-! ### Deciding the hypotheses for functions without literals -/

theorem occurs_child {n c : Node} {ns : List Node} (h : Occurs n ns) (hc : c ∈ n.children) : Occurs c ns := by
  obtain ⟨m, hm, hw⟩ := h
  refine ⟨m, hm, ?_⟩
  clear hm
  induction hw with
  | self => exact .child rfl hc .self
  | child hg hc' _ ih => exact .child hg hc' ih

theorem occurs_unparen {ns : List Node} : ∀ {n : Node}, Occurs n ns → Occurs n.unparen ns
  | .paren _ x, h => by simp only [Node.unparen]; exact occurs_unparen (occurs_child h (by simp [Node.children]))
  | .ident _, h | .basicLit _, h | .compositeLit _ _, h | .keyValue _ _ _, h | .funcLit _ _ _ _, h
  | .selector _ _ _, h | .index _ _ _, h | .typeAssert _ _ _, h | .call _ _ _, h | .unary _ _ _, h
  | .assign _ _ _, h | .ret _ _, h | .valueSpec _ _ _ _, h | .typeSwitch _ _ _ _, h | .caseClause _ _ _, h
  | .range _ _ _ _ _, h | .send _ _ _, h | .other _ _, h => by simpa only [Node.unparen] using h

theorem errExpr_occurs {env : Env} {f : FnId} {body : List Node} (h : simple env body = true) {e : Node} (he : ErrExpr env f body e) :
    (∃ i, e = .ident i) ∨ Occurs e body := by
  have := errExpr_candidate h he
  simp only [Analyse.candidates, List.mem_append, List.mem_map, List.mem_flatMap, mem_inspectList] at this
  rcases this with ⟨i, -, rfl⟩ | ⟨n, hn, hm⟩
  · exact .inl ⟨i, rfl⟩
  · refine .inr ?_
    unfold exprsOf at hm
    split at hm
    · exact occurs_child hn hm
    · rcases List.mem_append.1 hm with hm | hm
      · exact occurs_child hn (by simp [Node.children, hm])
      · obtain ⟨r, hr, hm⟩ := List.mem_filterMap.1 hm
        split at hm
        · rename_i hu
          cases hm
          have := occurs_unparen (occurs_child hn (c := r) (by simp [Node.children, hr]))
          rw [hu] at this
          exact occurs_child this (by simp [Node.children])
        · cases hm
    · cases hm

theorem errCall_occurs {env : Env} {f : FnId} {body : List Node} (h : simple env body = true) {id : NodeId} {fn : Node} {args : List Node}
    (hc : Calls.ErrCall env f body id fn args) : Occurs (.call id fn args) body := by
  cases hc with
  | expr he hu =>
    rcases errExpr_occurs h he with ⟨i, rfl⟩ | ho
    · simp [Node.unparen] at hu
    · rw [← hu]; exact occurs_unparen ho
  | last _ hd hu _ _ =>
    obtain ⟨_, lhs, rhs, ho, -, hm⟩ := simple_destructured h hd
    rw [← hu]
    exact occurs_unparen (occurs_child ho (by simp [Node.children, hm]))

/-- If the node is a selector, it names something. -/
def resolvedNode (env : Env) : Node → Bool
  | .selector sid x _ => (match x.unparen with | .ident t => (env.pkgName t.id).isSome | _ => false) || (env.selection sid).isSome
  | _ => true

/-- Called and assigned selectors name something, and return statements have results. -/
def checkedNode (env : Env) : Node → Bool
  | .call _ fn _ => resolvedNode env fn.unparen
  | .assign _ _ rhs => rhs.all fun r => resolvedNode env r.unparen
  | .ret _ rs => !rs.isEmpty
  | _ => true

theorem resolvedNode_resolved {env : Env} {sid : NodeId} {x : Node} {sel : Ident} (h : resolvedNode env (.selector sid x sel) = true) :
    Resolved env sid x := by
  unfold resolvedNode at h
  simp only [Bool.or_eq_true] at h
  rcases h with h | h
  · split at h
    · rename_i t ht
      obtain ⟨p, hp⟩ := Option.isSome_iff_exists.1 h
      exact .inl ⟨t, p, ht, hp⟩
    · cases h
  · exact .inr (by rw [← Option.isSome_iff_ne_none]; exact h)

theorem checked_of_simple {env : Env} {f : FnId} {body : List Node} (h : simple env body = true)
    (hc : (Node.inspectList (fun _ => true) body).all (checkedNode env) = true) : Checked env f body := by
  have key : ∀ n, Occurs n body → checkedNode env n = true := fun n hn => List.all_eq_true.1 hc n ((mem_inspectList _ _ _).2 hn)
  refine ⟨fun id fn args sid x sel he hu => ?_, fun v e sid x sel hs hu => ?_, fun id hr => ?_⟩
  · have := key _ (errCall_occurs h he)
    simp only [checkedNode, hu] at this
    exact resolvedNode_resolved this
  · obtain ⟨⟨id, lhs, rhs, ho, -, k, l, t, -, -, -, hk⟩, -⟩ := simple_source h hs
    have := key _ ho
    simp only [checkedNode] at this
    have := List.all_eq_true.1 this e (List.mem_of_getElem? hk)
    rw [hu] at this
    exact resolvedNode_resolved this
  · have := key _ (ErrorTypes.occurs_of_within hr.1)
    simp [checkedNode] at this

theorem exChecked : Checked exEnv 0 bodyA ∧ Checked exEnv 1 bodyB ∧ Checked exEnv 2 bodyC ∧ Checked exEnv 4 bodyE ∧
    Checked exEnv 5 bodyF ∧ Checked exEnv 6 bodyG :=
  ⟨checked_of_simple (by decide) (by decide), checked_of_simple (by decide) (by decide), checked_of_simple (by decide) (by decide),
    checked_of_simple (by decide) (by decide), checked_of_simple (by decide) (by decide), checked_of_simple (by decide) (by decide)⟩

/-- **C22 is false of the code**: a two-value map index expression for an error variable panics … -/
theorem map_index_panics : Regular exEnv 0 bodyA ∧ Checked exEnv 0 bodyA ∧
    (Search.findAll (plan exEnv (bound exEnv)) 9 [0] Search.start).map Prod.fst =
      .error (.panic "analyse.go:818: destructuring assignment is currently only supported from a call expression") :=
  ⟨exRegular.1, exChecked.1, rfl⟩

/-- … so does calling a value of a named function type … -/
theorem named_function_type_panics : Regular exEnv 1 bodyB ∧ Checked exEnv 1 bodyB ∧
    (Search.findAll (plan exEnv (bound exEnv)) 9 [1] Search.start).map Prod.fst =
      .error (.panic "analyse.go:807: interface conversion: types.Type is not *types.Signature") :=
  ⟨exRegular.2.1, exChecked.2.1, rfl⟩

/-- … assigning two fields at once of an error with constant code … -/
theorem two_fields_panic : Regular exEnv 2 bodyC ∧ Checked exEnv 2 bodyC ∧
    (Search.findAll (plan exEnv (bound exEnv)) 9 [2] Search.start).map Prod.fst = .error (.panic "analyse.go:915: nil pointer dereference") :=
  ⟨exRegular.2.2.1, exChecked.2.2.1, rfl⟩

/-- … analysing a function without body … -/
theorem bodiless_panics : (exEnv.func 3).body = none ∧
    (Search.findAll (plan exEnv (bound exEnv)) 9 [3] Search.start).map Prod.fst =
      .error (.panic "analyse.go:497: nil pointer dereference (function without body)") := ⟨rfl, rfl⟩

/-- … calling a function that panics … -/
theorem callee_panics : Regular exEnv 4 bodyE ∧ Checked exEnv 4 bodyE ∧ (plan exEnv (bound exEnv) 4).panics = false ∧
    (Search.findAll (plan exEnv (bound exEnv)) 9 [4] Search.start).map Prod.fst =
      .error (.panic "analyse.go:818: destructuring assignment is currently only supported from a call expression") :=
  ⟨exRegular.2.2.2.1, exChecked.2.2.2.1, rfl, rfl⟩

/-- … and calling an error constructor with a multi-value argument. -/
theorem multi_value_argument_panics : Regular exEnv 5 bodyF ∧ Checked exEnv 5 bodyF ∧
    (Search.findAll (plan exEnv (bound exEnv)) 9 [5] Search.start).map Prod.fst =
      .error (.panic "extract_error_code.go:140: should be unreachable: found function call using less arguments ...") :=
  ⟨exRegular.2.2.2.2.1, exChecked.2.2.2.2.1, rfl⟩

/-! ## The hypotheses are met -/

/-- The crashing construct of `A`, as in `body_exact`. -/
example : Crashes exEnv 0 bodyA := (body_exact exRegular.1 exChecked.1 (Nat.le_refl _)).1 rfl

/-- `G` has none, meets the hypotheses of `search_succeeds_partial`, and the search succeeds. -/
example : AllChecked exEnv (bound exEnv) [6] ∧ ¬ Crashes exEnv 6 bodyG ∧ (∀ id fn args, ¬ Calls.ErrCall exEnv 6 bodyG id fn args) ∧
    (Search.findAll (plan exEnv (bound exEnv)) 9 [6] Search.start).map Prod.fst = .ok [(6, [b!"a-error"])] := by
  have hreach : ∀ f, (∃ r ∈ [6], Reach (Calls (plan exEnv (bound exEnv))) r f) → f = 6 := by
    rintro f ⟨r, hr, hx⟩
    simp only [List.mem_singleton] at hr
    subst hr
    cases hx with
    | refl => rfl
    | step e _ =>
      unfold Serum.Calls at e
      rw [show (plan exEnv (bound exEnv) 6).targets = [] from rfl] at e; cases e
  refine ⟨fun f body hr hb => ?_, fun h => ?_, fun id fn args h => ?_, rfl⟩
  · obtain rfl := hreach f hr
    cases hb
    exact ⟨exRegular.2.2.2.2.2, exChecked.2.2.2.2.2⟩
  · have := (body_exact exRegular.2.2.2.2.2 exChecked.2.2.2.2.2 (Nat.le_refl _)).2 h
    rw [show (plan exEnv (bound exEnv) 6).panics = false from rfl] at this; cases this
  · have := (mem_inspectList _ _ _).2 (errCall_occurs (env := exEnv) (by decide) h)
    simp [bodyG, Node.inspectList, Node.inspect] at this

end Serum.Props.Crash
