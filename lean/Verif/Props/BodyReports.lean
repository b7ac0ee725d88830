import Verif.BodyReports
import Verif.Props.Crash
import Verif.Props.RunScope

/-!
# C58 — the reports about function bodies, exactly
-/

namespace Serum.Props.BodyReports
open Serum Flow Taint Analyse Serum.TypeReports Serum.BodyReports RunSpec Serum.Props.Run

/-- **C58**, for one body: the reports about a function body are exactly the problems listed by `Problem`, at their places and with
their messages. -/
theorem body_exact {env : Env} {f : FnId} {body : List Node} (h : Regular env f body) (hc : Checked env f body) (ty : Typed env f body)
    (ascii : PrintsAscii env.isPrint) {fuel : Nat} (hf : bound env ≤ fuel) (calm : ¬ Crashes env f body) {d : Diag} :
    d ∈ (plan env fuel f).reports ↔ Problem env f body d :=
  body_reports h ty ascii hf (by
    cases hp : (plan env fuel f).panics with
    | false => rfl
    | true => exact absurd ((h.panics_iff hc hf).1 hp) calm)

variable {P : Package} {S : Schedule} {strict : Bool} {out : Outcome}

/-- **C58**, for a run: what is reported for a function that is looked at are exactly the problems of its body. -/
theorem run_exact (h : runVerify P S strict = .ok out) (hS : S.Fair) (ho : Objects P) (hp : Interfaces.Program P.ifaces)
    (ascii : PrintsAscii P.env.isPrint) {f : FnId} {body : List Node}
    (hr : Regular (P.at_ (factsFor P out.facts f)) f body) (ty : Typed (P.at_ (factsFor P out.facts f)) f body) {d : Diag} :
    (f, d) ∈ out.bodies ↔ LookedAt P out.facts f ∧ Problem (P.at_ (factsFor P out.facts f)) f body d := by
  have hmem : (f, d) ∈ out.bodies ↔ d ∈ reportedIn out f := by
    unfold reportedIn
    simp only [List.mem_map, List.mem_filter, decide_eq_true_eq]
    constructor
    · intro hm; exact ⟨(f, d), ⟨hm, rfl⟩, rfl⟩
    · rintro ⟨⟨g, d'⟩, ⟨hm, rfl⟩, rfl⟩; exact hm
  rw [hmem]
  obtain ⟨b1, b2⟩ := bodies_once h hS ho hp f
  by_cases hl : LookedAt P out.facts f
  · have hc := looked_calm h hS ho hp hl
    rw [b1 hl]
    rw [seen_eq_plan] at hc ⊢
    simp only [hl, true_and]
    exact body_reports hr ty ascii (Nat.le_refl _) hc
  · rw [b2 hl]; simp [hl]

/-! ## Witnesses -/

/-- Assigned fields, as they are written. -/
def fieldTargets (body : List Node) : List Ident :=
  (Node.inspectList (fun _ => true) body).flatMap fun n => match n with
    | .assign _ lhs _ => lhs.filterMap fun l => match l with | .selector _ (.ident i) _ => some i | _ => none
    | _ => []

theorem fieldTargets_mem {body : List Node} {x : ObjId} {i : Ident} (h : FieldAssigned body x i) : i ∈ fieldTargets body ∧ i.obj = some x := by
  obtain ⟨id, lhs, rhs, k, hw, sid, sel, hk, ho⟩ := h
  refine ⟨List.mem_flatMap.2 ⟨.assign id lhs rhs, (mem_inspectList _ _ _).2 (ErrorTypes.occurs_of_within hw), ?_⟩, ho⟩
  exact List.mem_filterMap.2 ⟨_, List.mem_of_getElem? hk, rfl⟩

/-- A variable, a function or a type. -/
def plainObject : ObjInfo → Bool
  | ⟨.var, _, _⟩ | ⟨_, _, .funcDecl _⟩ | ⟨_, _, .typeSpec⟩ => true
  | _ => false

/-- If the node is an identifier, it denotes a variable, a function or a type. -/
def plainIdent (env : Env) : Node → Bool
  | .ident i => match i.obj with
    | some o => plainObject (env.object o)
    | none => true
  | _ => true

/-- A computable condition for `Typed`, for bodies without function literals. -/
theorem typed_of_simple {env : Env} {f : FnId} {body : List Node} (h : simple env body = true)
    (ho : (Node.inspectList (fun _ => true) body).all (plainIdent env) = true)
    (ht : ∀ i ∈ fieldTargets body, ∀ j ∈ fieldTargets body, i.obj = j.obj → env.typeOf i.id = env.typeOf j.id) : Typed env f body where
  clean := fun _ _ _ i _ _ => (Tracking.scope_of_noLits _ _ (simple_noLit h)).2 i
  param := fun i _ => (Tracking.scope_of_noLits _ _ (simple_noLit h)).2 i
  oneType := fun x i j hi hj => by
    obtain ⟨h1, h2⟩ := fieldTargets_mem hi
    obtain ⟨h3, h4⟩ := fieldTargets_mem hj
    exact ht i h1 j h3 (h2.trans h4.symm)
  functions := by
    rintro id fn args i e j o - - ⟨x, -, hs, hv⟩ hu hj
    have hocc : Occurs (.ident j) body := by
      obtain ⟨⟨aid, lhs, rhs, hin, -, k, l, t, -, -, -, hk⟩, -⟩ := simple_source h hs
      have := Crash.occurs_unparen (Crash.occurs_child hin (c := e) (by simp [Node.children, List.mem_of_getElem? hk]))
      rwa [hu] at this
    have := List.all_eq_true.1 ho _ ((mem_inspectList _ _ _).2 hocc)
    simp only [plainIdent, hj] at this
    have hk : (env.object o).kind ≠ .var := fun hk => hv ⟨j, o, hu, hj, hk⟩
    unfold plainObject at this
    split at this
    · rename_i hd; rw [hd] at hk; exact absurd rfl hk
    · rename_i g _ hd; rw [hd]; exact .inl ⟨_, rfl⟩
    · rename_i hd; rw [hd]; exact .inr rfl
    · cases this

theorem regular_of_simple {env : Env} {f : FnId} {body : List Node} (hbody : (env.func f).body = some body) (h : simple env body = true)
    (hc : ∀ position, importErrorConstructorFact env f = some position → getParamIdent (env.func f).type position ≠ none) :
    Regular env f body :=
  let env' : Env := { env with facts := ⟨env.facts.codes, fun _ => none, env.facts.errorType, env.facts.interface⟩ }
  have r : Regular env' f body := .of_simple hbody h (by unfold importErrorConstructorFact; split <;> rfl)
  ⟨hbody, ⟨(Tracking.scope_of_noLits _ _ (simple_noLit h)).1, fun _ i _ _ => (Tracking.scope_of_noLits _ _ (simple_noLit h)).2 i⟩,
    r.parsed, ⟨fun _ => 0, fun _ => Nat.zero_le _, fun x e i o hk hs _ _ => absurd (simple_source h hs).2 hk⟩, hc⟩

/-!
```go
// Errors:
//
//   - param: code -- the given one
func New(code string) error {
	code, _ = m[1]
	h, _ := fs[0]
	h = fs[1]
	h = pkg.Other
	if … { return h() }
	err, n := g()
	e := &Err{code}
	e.TheCode, n = two()
	e.TheCode = 5
	if … { return e }
	return err
}
```
Objects: `code` 0, `h` 1, `err` 2, `g` 3, `e` 4, `n` 5. -/

def exBody : List Node :=
  [.assign 1 [.ident ⟨2, b!"code", some 0⟩, .ident ⟨3, b!"_", none⟩] [.index 4 (.ident ⟨5, b!"m", none⟩) (.basicLit 6)],
   .assign 7 [.ident ⟨8, b!"h", some 1⟩, .ident ⟨9, b!"_", none⟩] [.index 10 (.ident ⟨11, b!"fs", none⟩) (.basicLit 12)],
   .assign 13 [.ident ⟨14, b!"h", some 1⟩] [.index 15 (.ident ⟨16, b!"fs", none⟩) (.basicLit 17)],
   .assign 18 [.ident ⟨19, b!"h", some 1⟩] [.selector 20 (.ident ⟨21, b!"pkg", none⟩) ⟨22, b!"Other", none⟩],
   .other 23 [.ret 24 [.call 25 (.ident ⟨26, b!"h", some 1⟩) []]],
   .assign 27 [.ident ⟨28, b!"err", some 2⟩, .ident ⟨29, b!"n", some 5⟩] [.call 30 (.ident ⟨31, b!"g", some 3⟩) []],
   .assign 32 [.ident ⟨33, b!"e", some 4⟩] [.unary 34 true (.compositeLit 35 [.ident ⟨36, b!"code", some 0⟩])],
   .assign 37 [.selector 38 (.ident ⟨39, b!"e", some 4⟩) ⟨40, b!"TheCode", none⟩, .ident ⟨41, b!"n", some 5⟩]
     [.call 42 (.ident ⟨43, b!"two", none⟩) []],
   .assign 44 [.selector 45 (.ident ⟨46, b!"e", some 4⟩) ⟨47, b!"TheCode", none⟩] [.basicLit 48],
   .other 49 [.ret 50 [.ident ⟨51, b!"e", some 4⟩]],
   .ret 52 [.ident ⟨53, b!"err", some 2⟩]]

def exEnv : Env :=
  { Tracking.plainEnv [⟨.var, 15, .other⟩, ⟨.var, 30, .other⟩, ⟨.var, 40, .other⟩, ⟨.fun_, 200, .funcDecl 1⟩, ⟨.var, 50, .other⟩,
      ⟨.var, 41, .other⟩] with
    funcs := [⟨100, some ⟨101, b!"New", none⟩, ⟨[⟨[⟨104, b!"code", some 0⟩], 105⟩], some [⟨[], 106⟩], 10⟩, some exBody, 20, 100⟩]
    typeOf := fun n => if n = 31 then .signature 0 else if n ∈ [33, 34, 39, 46, 51] then .pointer (.named 7) else
      if n = 35 then .named 7 else .other 0
    sigResults := fun _ => 2
    implCode := fun t => t = .pointer (.named 7)
    value := fun n => if n = 48 then some .other else none
    callee := fun n => if n = 30 then some 90 else none
    pkgName := fun n => if n = 21 then some b!"pkg" else none
    facts := ⟨fun _ => none, fun o => if o = 0 then some 0 else none,
      fun o => if o = 7 then some ⟨[], some ⟨b!"TheCode", 0⟩⟩ else none, fun _ => none⟩ }

theorem exEnv_ascii : PrintsAscii exEnv.isPrint := fun r _ => by
  simp [exEnv, Tracking.plainEnv]

theorem exEnv_regular : Regular exEnv 0 exBody := regular_of_simple rfl (by decide) (by
  intro position h
  have : importErrorConstructorFact exEnv 0 = some 0 := rfl
  rw [this] at h; cases h; decide)

theorem exEnv_checked : Checked exEnv 0 exBody := Crash.checked_of_simple (by decide) (by decide)

theorem exEnv_typed : Typed exEnv 0 exBody := typed_of_simple (by decide)
  (by decide)
  (by decide)

/-- The hypotheses of `body_exact` hold for this function; its problems are these seven. -/
example : Regular exEnv 0 exBody ∧ Checked exEnv 0 exBody ∧ Typed exEnv 0 exBody ∧ ¬ Crashes exEnv 0 exBody ∧
    ∀ d, Problem exEnv 0 exBody d ↔ d ∈ [(⟨4, .paramDestructured b!"code"⟩ : Diag), ⟨10, .lambdaDestructured b!"h"⟩,
      ⟨15, .lambdaUnsupported b!"h"⟩, ⟨20, .foreignUndeclared b!"Other" b!"pkg"⟩, ⟨28, .nonLastResult⟩, ⟨42, .notConstant⟩,
      ⟨48, .badConstant .notString⟩] := by
  have hc : ¬ Crashes exEnv 0 exBody := fun h => by
    have := (exEnv_regular.panics_iff exEnv_checked (Nat.le_refl _)).2 h
    revert this; decide
  refine ⟨exEnv_regular, exEnv_checked, exEnv_typed, hc, fun d => ?_⟩
  rw [← body_exact exEnv_regular exEnv_checked exEnv_typed exEnv_ascii (Nat.le_refl _) hc]
  exact Iff.of_eq (congrArg (d ∈ ·) (by rfl))

/-- A run: the body of `F` in `pkgParam` has exactly the two problems which are reported. -/
example : ∃ out, runVerify pkgParam schedule false = .ok out ∧ LookedAt pkgParam out.facts 0 ∧
    ∀ d, Problem (pkgParam.at_ (factsFor pkgParam out.facts 0)) 0 bodyParam d ↔
      d = ⟨32, .errorOutOfScope⟩ ∨ d = ⟨36, .errorOutOfScope⟩ := by
  have hrun : ∃ out, runVerify pkgParam schedule false = .ok out ∧ out.bodies = [(0, ⟨32, .errorOutOfScope⟩), (0, ⟨36, .errorOutOfScope⟩)] ∧
      out.facts.ctor 70 = none := ⟨_, rfl, by decide, by decide⟩
  obtain ⟨out, h, hb, hctor⟩ := hrun
  have hctor' : (factsFor pkgParam out.facts 0).ctor 70 = none := by unfold factsFor; split <;> exact hctor
  have hs : ∀ facts, simple (pkgParam.at_ facts) bodyParam = true := fun _ => rfl
  have hr : Regular (pkgParam.at_ (factsFor pkgParam out.facts 0)) 0 bodyParam := .of_simple rfl (hs _) hctor'
  have ht : Typed (pkgParam.at_ (factsFor pkgParam out.facts 0)) 0 bodyParam := typed_of_simple (hs _) rfl (fun i hi => by cases hi)
  have key := fun d => run_exact h schedule_fair pkgParam_objects pkg_program exEnv_ascii hr ht (d := d)
  have hl := ((key ⟨32, .errorOutOfScope⟩).1 (by rw [hb]; simp)).1
  refine ⟨out, h, hl, fun d => ?_⟩
  have := key d
  rw [hb] at this
  simpa [hl] using this.symm

end Serum.Props.BodyReports
