import Verif.Props.RunExample

/-!
# C17–C20, C24 — a package whose analysis depends on the map iteration order

```go
type Err struct{ TheCode string }
func (e *Err) Code() string { return e.TheCode }

// Errors:
//   - a-error -- sometimes
//   - b-error -- sometimes
func A() error {
	if … { return B() }
	return &Err{"a-error"}
}

// Errors:
//   - b-error -- always
func B() error {
	f := func() error { return A() }
	if … { return f() }
	return &Err{"b-error"}
}
```

Functions: `A` 0, `B` 1, the literal 2, `Code` 3.  Objects of syntax: `A` 0, `B` 1, `f` 2, `e` 3.
-/

namespace Serum.Props.Run.Callback
open Serum RunSpec Soundness

def retB : Node := .ret 10 [.call 11 (.ident ⟨12, b!"B", some 1⟩) []]
def retErrA : Node := .ret 13 [.unary 14 true (.compositeLit 15 [.basicLit 16])]
def bodyA : List Node := [.other 17 [retB], retErrA]

def retA : Node := .ret 20 [.call 21 (.ident ⟨22, b!"A", some 0⟩) []]
def lit : Node := .funcLit 23 2 ⟨[], some [⟨[], 24⟩], 230⟩ [retA]
def newF : Node := .assign 25 [.ident ⟨26, b!"f", some 2⟩] [lit]
def retF : Node := .ret 27 [.call 28 (.ident ⟨29, b!"f", some 2⟩) []]
def retErrB : Node := .ret 30 [.unary 31 true (.compositeLit 32 [.basicLit 33])]
def bodyB : List Node := [newF, .other 34 [retF], retErrB]

def bodyCode : List Node := [.ret 40 [.selector 41 (.ident ⟨42, b!"e", some 3⟩) ⟨43, b!"TheCode", none⟩]]

def env : Env :=
  { Tracking.plainEnv [⟨.fun_, 101, .funcDecl 0⟩, ⟨.fun_, 201, .funcDecl 1⟩, ⟨.var, 225, .other⟩, ⟨.var, 306, .other⟩] with
    funcs := [⟨100, some ⟨101, b!"A", none⟩, ⟨[], some [⟨[], 24⟩], 110⟩, some bodyA, 120, 200⟩,
      ⟨102, some ⟨103, b!"B", none⟩, ⟨[], some [⟨[], 24⟩], 210⟩, some bodyB, 220, 300⟩,
      ⟨104, none, ⟨[], some [⟨[], 24⟩], 230⟩, some [retA], 240, 260⟩,
      ⟨105, some ⟨106, b!"Code", none⟩, ⟨[], some [⟨[], 44⟩], 310⟩, some bodyCode, 320, 400⟩]
    funcObj := fun f => 70 + f
    callee := fun n => if n = 11 then some 71 else if n = 21 then some 70 else if n = 28 then some 80 else none
    typeOf := fun n => if n = 12 ∨ n = 22 ∨ n = 23 ∨ n = 26 ∨ n = 29 then .signature 1 else if n = 16 ∨ n = 33 ∨ n = 41 ∨ n = 44 then .string
      else if n = 24 ∨ n = 11 ∨ n = 21 ∨ n = 28 then .named 9 else if n = 15 ∨ n = 32 then .named 7 else .pointer (.named 7)
    sigResults := fun _ => 1
    implError := fun t => t == .pointer (.named 7) || t == .named 9
    implCode := fun t => t == .pointer (.named 7)
    methodSet := fun t m => if t = .pointer (.named 7) ∧ m = b!"Code" then some 73 else none
    methods := fun m => if m = b!"Code" then [3] else []
    value := fun n => if n = 16 then some (.str b!"a-error") else if n = 33 then some (.str b!"b-error") else none }

def pkg : Package where
  env := env
  decls :=
    { name := fun f => if f = 0 then b!"A" else if f = 1 then b!"B" else b!"Code"
      exported := fun _ => true
      recv := fun f => if f = 3 then some 68 else none
      doc := fun f => if f = 0 then some b!"Errors:\n\n  - a-error -- sometimes\n  - b-error -- sometimes\n"
        else if f = 1 then some b!"Errors:\n\n  - b-error -- always\n" else none
      implCause := fun _ => false
      pos := fun f => 600 + f }
  types :=
    { recvType := fun _ => .pointer (.named 7)
      recvNames := fun f => if f = 3 then [⟨69, b!"e", some 3⟩] else []
      isInterface := fun _ => false
      methodNames := fun o => if o = 7 then [b!"Code"] else [] }
  funcs := [3, 0, 1]
  specs := [⟨300, .named 7, some [[b!"TheCode"]]⟩]
  ifaces := []
  methodObj := fun _ => 0
  conv :=
    { underlying := fun o => if o = 9 then .interface 2 else .struct o
      params := fun _ => []
      variadic := fun _ => false
      tuple := fun _ => []
      fields := fun o => if o = 7 then [(b!"TheCode", .string)] else []
      implements := fun t i => t == .pointer (.named 7) && i == 2 }
  top := [.func 3, .func 0, .func 1]

/-- The declared functions in the order of the source. -/
def inOrder : Schedule := { schedule with functions := id, claims := id }
/-- … and in the reverse order. -/
def reversed : Schedule := { schedule with functions := id, claims := List.reverse }

theorem inOrder_fair : inOrder.Fair := { schedule_fair with functions := fun _ => .refl _, claims := fun _ => .refl _ }
theorem reversed_fair : reversed.Fair := { schedule_fair with functions := fun _ => .refl _ }

/-- What the first run leaves behind. -/
def out : Outcome :=
  match runVerify pkg inOrder false with
  | .ok out => out
  | .error _ => ⟨pkg.env.facts, [], [], [], [], [], [], []⟩

theorem ran : runVerify pkg inOrder false = .ok out := rfl

/-- What the second run leaves behind. -/
def out' : Outcome :=
  match runVerify pkg reversed false with
  | .ok out => out
  | .error _ => ⟨pkg.env.facts, [], [], [], [], [], [], []⟩

theorem ran' : runVerify pkg reversed false = .ok out' := rfl

theorem objects : Objects pkg where
  funcs := by decide
  distinct := fun f _ g _ h => Nat.add_left_cancel (n := 70) h
  methods := by intro d hd; cases hd
  apart := by intro f hf d hd; cases hd
  imported := fun _ _ => ⟨rfl, rfl⟩
  importedMethods := fun _ hd => by cases hd
  interfaces := by intro d hd; cases hd
  importedInterfaces := fun _ hd => by cases hd
  importedTables := fun o ms h => by cases h

theorem program : Interfaces.Program pkg.ifaces where
  names := by decide
  methods := by decide
  acyclic := ⟨fun _ => 0, fun d hd => by cases hd⟩

/-- What is known while bodies are looked at. -/
abbrev known : Env := pkg.at_ (during pkg out.facts)

open Flow Runtime Props.Calls in
/-- At run time `B` can return an error with code `a-error`. -/
theorem returns_a : Yields known exExtra (.ret 1 []) ⟨errT, b!"a-error"⟩ := by
  have noTrust : ∀ id, ¬ ∃ q S, Trusted known id q S := by
    rintro id ⟨q, S, h1, h2⟩
    by_cases e1 : id = 11
    · subst e1; cases h1; cases h2
    · by_cases e2 : id = 21
      · subst e2; cases h1; cases h2
      · by_cases e3 : id = 28
        · subst e3; cases h1; cases h2
        · have : known.callee id = none := by
            show env.callee id = none
            simp [env, e1, e2, e3]
          rw [this] at h1; cases h1
  have honest : ∀ (id : NodeId) (o : Obj), Honours known id o := fun id o a ha => by
    simp [known, Package.at_, Package.start, pkg, env, Tracking.plainEnv, getReturnStmtAnnotations] at ha
  have hA : Yields known exExtra (.ret 0 []) ⟨errT, b!"a-error"⟩ := by
    refine .returned (id := 13) (results := [.unary 14 true (.compositeLit 15 [.basicLit 16])]) (body := bodyA) rfl
      ⟨retErrA, by simp [bodyA], .self⟩ (.inl rfl) ?_ (honest _ _)
    exact .pointerLiteral rfl rfl rfl (by
      intro field hf
      cases hf
      exact .inr (.inl ⟨by simp, .basicLit 16, rfl, .constant rfl⟩))
  have hL : Yields known exExtra (.ret 2 []) ⟨errT, b!"a-error"⟩ := by
    refine .returned (id := 20) (results := [.call 21 (.ident ⟨22, b!"A", some 0⟩) []]) (body := [retA]) rfl
      ⟨retA, by simp, .self⟩ (.inl rfl) ?_ (honest _ _)
    exact .called rfl (.own (g := 0) (a := []) rfl (noTrust _) (.inl ⟨_, 0, rfl, rfl, rfl⟩) (fun p h => by cases h) hA)
  refine .returned (id := 27) (results := [.call 28 (.ident ⟨29, b!"f", some 2⟩) []]) (body := bodyB) rfl
    ⟨.other 34 [retF], by simp [bodyB], .child (c := retF) rfl (List.mem_cons_self ..) .self⟩ (.inl rfl) ?_ (honest _ _)
  refine .called rfl (.throughVar (x := 2) rfl (noTrust _) ⟨_, rfl, rfl, nofun⟩ ?_)
  refine .fnAssigned (e := lit) (.inr ⟨25, _, _, ⟨newF, by simp [bodyB], .self⟩, rfl, 0, _, _, rfl, rfl, rfl, rfl⟩) ?_ ?_
  · rintro ⟨j, y, h, -⟩; cases h
  · exact .applyOwn (g := 2) (a := []) (by rintro ⟨q, S, h, -⟩; cases h) (.inr (.inr (.inr ⟨_, _, _, rfl⟩))) hL

/-- **C20 (and C17–C19, C24) is false of the code**: a package for which one iteration order of a Go map leads to a run without any
report, and another one to a report — which is right, since `B` returns `a-error` at run time without declaring it. -/
theorem order_matters : inOrder.Fair ∧ reversed.Fair ∧ Objects pkg ∧ Interfaces.Program pkg.ifaces ∧
    runVerify pkg inOrder false = .ok out ∧ runVerify pkg reversed false = .ok out' ∧
    (out.tags = [] ∧ out.ifaces = [] ∧ out.signatures = [] ∧ out.claims = [] ∧ out.bodies = [] ∧ out.mismatches = [] ∧ out.conversions = []) ∧
    out'.mismatches = [(1, b!"missing codes: [a-error]")] ∧
    out.facts.codes 71 = some [b!"b-error"] ∧ out'.facts.codes 71 = some [b!"b-error"] ∧
    Runtime.Yields known exExtra (.ret 1 []) ⟨errT, b!"a-error"⟩ :=
  ⟨inOrder_fair, reversed_fair, objects, program, ran, ran', by decide, by decide, by decide, by decide, returns_a⟩

end Serum.Props.Run.Callback
