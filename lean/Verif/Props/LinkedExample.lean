import Verif.Props.Linked
import Verif.LinkedScope

/-!
# An example of a program of two packages

```go
package a

type Err struct{ TheCode string }
func (e *Err) Code() string { return e.TheCode }

type Getter interface {
	// Errors:
	//   - a-error -- always
	Get() error
}

// Errors:
//   - a-error -- always
func Use(g Getter) error { return g.Get() }

// Errors:
//   - param: code -- the given one
func New(code string) *Err { return &Err{code} }
```
```go
package b

type Impl struct{}

// Errors:
//   - a-error -- always
func (Impl) Get() error { return a.New("a-error") }

// Errors:
//   - a-error -- always
func Run() error { return a.Use(Impl{}) }
```

Functions of `a`: `Use` 0, `New` 1, `Code` 2 (objects 70 + f); of `b`: `Get` 0, `Run` 1 (objects 80 + f); types: `Err` 7, `Impl` 8, `error` 9,
`Getter` 20; `Getter.Get` 90.
-/

namespace Serum.Props.Linked
open Serum RunSpec SessionSpec Serum.Linked Serum.Runtime Soundness Run

namespace Example

/-- The types of the program. -/
def U : Universe where
  methods := fun t m =>
    if m = b!"Get" ∧ (t = .named 8 ∨ t = .pointer (.named 8)) then some 80
    else if m = b!"Get" ∧ t = .named 20 then some 90
    else if m = b!"Code" ∧ t = .pointer (.named 7) then some 72 else none
  underlying := fun o => if o = 20 then .interface 1 else if o = 9 then .interface 2 else .struct o

def info : Conv.Info where
  underlying := U.underlying
  params := fun s => if s = 1 then [.string] else if s = 3 then [.named 20] else []
  variadic := fun _ => false
  tuple := fun _ => []
  fields := fun o => if o = 7 then [(b!"TheCode", .string)] else []
  implements := fun t i => (t == .named 8 && i == 1) || (t == .pointer (.named 7) && i == 2)

def none_ : Extra where
  conversion := fun _ => false
  shift := fun _ => 0
  op := fun _ => false
  codeField := fun _ => none
  deref := fun _ => false
  deferred := fun _ => false
  foreign := fun _ _ => False
  declared := fun _ _ _ => False

def aError : GoString := b!"Errors:\n\n  - a-error -- always\n"

/-! ### Package `a` -/

def bodyUse : List Node := [.ret 1 [.call 2 (.selector 3 (.ident ⟨4, b!"g", some 0⟩) ⟨5, b!"Get", none⟩) []]]
def bodyNew : List Node := [.ret 40 [.unary 41 true (.compositeLit 42 [.ident ⟨43, b!"code", some 1⟩])]]
def bodyCode : List Node := [.ret 70 [.selector 71 (.ident ⟨72, b!"e", some 2⟩) ⟨73, b!"TheCode", none⟩]]

def aEnv : Env :=
  { Tracking.plainEnv [⟨.var, 11, .other⟩, ⟨.var, 111, .other⟩, ⟨.var, 206, .other⟩] with
    funcs := [⟨100, some ⟨101, b!"Use", none⟩, ⟨[⟨[⟨102, b!"g", some 0⟩], 103⟩], some [⟨[], 104⟩], 15⟩, some bodyUse, 20, 100⟩,
      ⟨105, some ⟨106, b!"New", none⟩, ⟨[⟨[⟨107, b!"code", some 1⟩], 108⟩], some [⟨[], 109⟩], 115⟩, some bodyNew, 120, 200⟩,
      ⟨110, some ⟨111, b!"Code", none⟩, ⟨[], some [⟨[], 112⟩], 210⟩, some bodyCode, 220, 300⟩]
    funcObj := fun f => 70 + f
    callee := fun n => if n = 2 then some 90 else none
    selection := fun n => if n = 3 then some (.named 20, 90) else none
    typeOf := fun n => if n = 3 then .signature 2 else if n = 2 ∨ n = 104 ∨ n = 67 then .named 9 else if n = 4 ∨ n = 102 ∨ n = 103 then .named 20
      else if n = 42 then .named 7 else if n = 41 ∨ n = 109 ∨ n = 72 then .pointer (.named 7) else .string
    implError := fun t => t == .pointer (.named 7) || t == .named 9
    implCode := fun t => t == .pointer (.named 7)
    methodSet := U.methods }

def getter : IfaceDecl := ⟨b!"Getter", 20, .interface 1, [.method ⟨65, ⟨64, b!"Get", none⟩, ⟨[], some [⟨[], 67⟩], 0⟩, some aError⟩]⟩

def aPkg : Package where
  env := aEnv
  decls :=
    { name := fun f => if f = 0 then b!"Use" else if f = 1 then b!"New" else b!"Code"
      exported := fun _ => true
      recv := fun f => if f = 2 then some 72 else none
      doc := fun f => if f = 0 then some aError else if f = 1 then some b!"Errors:\n\n  - param: code -- the given one\n" else none
      implCause := fun _ => false
      pos := fun f => 600 + f }
  types :=
    { recvType := fun _ => .pointer (.named 7)
      recvNames := fun f => if f = 2 then [⟨69, b!"e", some 2⟩] else []
      isInterface := fun o => o == 20
      methodNames := fun o => if o = 7 then [b!"Code"] else [] }
  funcs := [0, 1, 2]
  specs := [⟨300, .named 7, some [[b!"TheCode"]]⟩, ⟨301, .named 20, none⟩]
  ifaces := [getter]
  methodObj := fun n => if n = 64 then 90 else 0
  conv := info
  top := [.func 0, .func 1, .func 2]

def aOut : Outcome :=
  match runVerify aPkg schedule false with
  | .ok out => out
  | .error _ => ⟨aPkg.env.facts, [], [], [], [], [], [], []⟩

theorem a_ran : runVerify aPkg schedule false = .ok aOut := rfl

def a : Member := ⟨aPkg, schedule, aOut⟩

/-! ### Package `b` -/

def bodyGet : List Node := [.ret 80 [.call 81 (.selector 82 (.ident ⟨83, b!"a", none⟩) ⟨85, b!"New", none⟩) [.basicLit 84]]]
def bodyRun : List Node := [.ret 90 [.call 91 (.selector 92 (.ident ⟨93, b!"a", none⟩) ⟨94, b!"Use", none⟩) [.compositeLit 95 []]]]

/-- What `a` has recorded. -/
def aFacts : Facts where
  codes := fun o => if o = 70 then some [b!"a-error"] else if o = 71 then some [] else if o = 90 then some [b!"a-error"] else none
  ctor := fun o => if o = 71 then some 0 else none
  errorType := fun o => if o = 7 then some errT else none
  interface := fun o => if o = 20 then some [(b!"Get", [b!"a-error"])] else none

def bEnv : Env :=
  { Tracking.plainEnv [] with
    funcs := [⟨400, some ⟨401, b!"Get", none⟩, ⟨[], some [⟨[], 402⟩], 10⟩, some bodyGet, 20, 100⟩,
      ⟨405, some ⟨406, b!"Run", none⟩, ⟨[], some [⟨[], 407⟩], 110⟩, some bodyRun, 120, 200⟩]
    funcObj := fun f => 80 + f
    callee := fun n => if n = 81 then some 71 else if n = 91 then some 70 else none
    pkgName := fun n => if n = 83 ∨ n = 93 then some b!"a" else none
    typeOf := fun n => if n = 82 then .signature 1 else if n = 92 then .signature 3 else if n = 91 ∨ n = 402 ∨ n = 407 then .named 9
      else if n = 81 then .pointer (.named 7) else if n = 95 ∨ n = 408 then .named 8 else .string
    value := fun n => if n = 84 then some (.str b!"a-error") else none
    implError := fun t => t == .pointer (.named 7) || t == .named 9
    implCode := fun t => t == .pointer (.named 7)
    methodSet := U.methods
    facts := aFacts }

def bPkg : Package where
  env := bEnv
  decls :=
    { name := fun f => if f = 0 then b!"Get" else b!"Run"
      exported := fun _ => true
      recv := fun f => if f = 0 then some 408 else none
      doc := fun _ => some aError
      implCause := fun _ => false
      pos := fun f => 700 + f }
  types :=
    { recvType := fun _ => .named 8
      recvNames := fun _ => []
      isInterface := fun o => o == 20
      methodNames := fun o => if o = 8 then [b!"Get"] else [] }
  funcs := [0, 1]
  specs := [⟨302, .named 8, some []⟩]
  ifaces := []
  methodObj := fun _ => 0
  conv := info
  top := [.func 0, .func 1]

def bOut : Outcome :=
  match runVerify bPkg schedule false with
  | .ok out => out
  | .error _ => ⟨bPkg.env.facts, [], [], [], [], [], [], []⟩

theorem b_ran : runVerify bPkg schedule false = .ok bOut := rfl

def b : Member := ⟨bPkg, schedule, bOut⟩

/-- Both runs report nothing. -/
theorem a_silent : aOut.tags = [] ∧ aOut.ifaces = [] ∧ aOut.signatures = [] ∧ aOut.claims = [] ∧ aOut.bodies = [] ∧
    aOut.mismatches = [] ∧ aOut.conversions = [] := by decide
theorem b_silent : bOut.tags = [] ∧ bOut.ifaces = [] ∧ bOut.signatures = [] ∧ bOut.claims = [] ∧ bOut.bodies = [] ∧
    bOut.mismatches = [] ∧ bOut.conversions = [] := by decide

/-! ### Declarations -/

theorem a_objects : Objects aPkg where
  funcs := by decide
  distinct := fun f _ g _ h => Nat.add_left_cancel (n := 70) h
  methods := by
    intro d hd m hm d' hd' m' hm' _
    simp only [aPkg, List.mem_singleton] at hd hd'
    subst hd; subst hd'
    simp only [getter, List.mem_singleton, IfaceElement.method.injEq] at hm hm'
    exact ⟨rfl, hm.trans hm'.symm⟩
  apart := by
    intro f hf d hd m hm
    simp only [aPkg, List.mem_singleton] at hd
    subst hd
    simp only [getter, List.mem_singleton, IfaceElement.method.injEq] at hm
    subst hm
    simp only [aPkg, List.mem_cons, List.not_mem_nil, or_false] at hf
    rcases hf with rfl | rfl | rfl <;> decide
  imported := fun _ _ => ⟨rfl, rfl⟩
  importedMethods := fun _ _ _ _ => rfl
  interfaces := by
    intro d hd d' hd' _
    simp only [aPkg, List.mem_singleton] at hd hd'
    rw [hd, hd']
  importedInterfaces := fun _ _ => rfl
  importedTables := fun o ms h => by cases h

theorem a_program : Interfaces.Program aPkg.ifaces where
  names := by decide
  methods := by decide
  acyclic := ⟨fun _ => 0, fun d hd d' _ id h => by
    simp only [aPkg, List.mem_singleton] at hd
    subst hd
    simp [getter] at h⟩

theorem a_types : Types aPkg where
  named := by
    intro s hs
    simp only [aPkg, List.mem_cons, List.not_mem_nil, or_false] at hs
    rcases hs with rfl | rfl <;> exact ⟨_, rfl⟩
  distinct := by decide
  imported := fun _ _ _ _ => rfl

theorem b_objects : Objects bPkg where
  funcs := by decide
  distinct := fun f _ g _ h => Nat.add_left_cancel (n := 80) h
  methods := fun d hd => (nomatch hd)
  apart := fun f hf d hd => (nomatch hd)
  imported := by
    intro f hf
    simp only [bPkg, List.mem_cons, List.not_mem_nil, or_false] at hf
    rcases hf with rfl | rfl <;> exact ⟨by decide, by decide⟩
  importedMethods := fun d hd => (nomatch hd)
  interfaces := fun d hd => (nomatch hd)
  importedInterfaces := fun d hd => (nomatch hd)
  importedTables := by
    intro o ms h
    simp only [bPkg, bEnv, aFacts] at h
    split at h
    · cases h; decide
    · cases h

theorem b_program : Interfaces.Program bPkg.ifaces := ⟨by decide, by decide, ⟨fun _ => 0, fun d hd => (nomatch hd)⟩⟩

theorem b_types : Types bPkg where
  named := by
    intro s hs
    simp only [bPkg, List.mem_cons, List.not_mem_nil, or_false] at hs
    subst hs; exact ⟨_, rfl⟩
  distinct := by decide
  imported := by
    intro s hs o h
    simp only [bPkg, List.mem_cons, List.not_mem_nil, or_false] at hs
    subst hs; cases h; rfl

theorem a_belongs {o : Object} (h : Belongs aPkg o) : o ∈ [70, 71, 72, 90, 20, 7] := by
  cases h with
  | func hf he =>
    simp only [aPkg, List.mem_cons, List.not_mem_nil, or_false] at hf
    rcases hf with rfl | rfl | rfl <;> subst he <;> decide
  | method hd hm he =>
    simp only [aPkg, List.mem_singleton] at hd
    subst hd
    simp only [getter, List.mem_singleton, IfaceElement.method.injEq] at hm
    subst hm; subst he; decide
  | interface hd he =>
    simp only [aPkg, List.mem_singleton] at hd
    subst hd; subst he; decide
  | type hs he =>
    simp only [aPkg, List.mem_cons, List.not_mem_nil, or_false] at hs
    rcases hs with rfl | rfl <;> cases he <;> decide

theorem belongs_a {o : Object} (h : o ∈ [70, 71, 72, 90, 20, 7]) : Belongs aPkg o := by
  simp only [List.mem_cons, List.not_mem_nil, or_false] at h
  rcases h with rfl | rfl | rfl | rfl | rfl | rfl
  · exact .func (f := 0) (by decide) rfl
  · exact .func (f := 1) (by decide) rfl
  · exact .func (f := 2) (by decide) rfl
  · exact .method (List.mem_singleton.2 rfl) (List.mem_singleton.2 rfl) rfl
  · exact .interface (List.mem_singleton.2 rfl) rfl
  · exact .type (spec := ⟨300, .named 7, some [[b!"TheCode"]]⟩) (by simp [aPkg]) rfl

theorem b_belongs {o : Object} (h : Belongs bPkg o) : o ∈ [80, 81, 8] := by
  cases h with
  | func hf he =>
    simp only [bPkg, List.mem_cons, List.not_mem_nil, or_false] at hf
    rcases hf with rfl | rfl <;> subst he <;> decide
  | method hd => cases hd
  | interface hd => cases hd
  | type hs he =>
    simp only [bPkg, List.mem_cons, List.not_mem_nil, or_false] at hs
    subst hs; cases he; decide

theorem belongs_b {o : Object} (h : o ∈ [80, 81, 8]) : Belongs bPkg o := by
  simp only [List.mem_cons, List.not_mem_nil, or_false] at h
  rcases h with rfl | rfl | rfl
  · exact .func (f := 0) (by decide) rfl
  · exact .func (f := 1) (by decide) rfl
  · exact .type (spec := ⟨302, .named 8, some []⟩) (by simp [bPkg]) rfl

/-- What `a` has recorded is what `b` was given. -/
theorem a_facts (o : Object) (x : Fact) : aFacts.Has o x ↔ aOut.facts.Has o x := by
  by_cases h : o ∈ [70, 71, 72, 90, 20, 7]
  · have : aFacts.codes o = aOut.facts.codes o ∧ aFacts.ctor o = aOut.facts.ctor o ∧ aFacts.errorType o = aOut.facts.errorType o ∧
        aFacts.interface o = aOut.facts.interface o := by
      simp only [List.mem_cons, List.not_mem_nil, or_false] at h
      rcases h with rfl | rfl | rfl | rfl | rfl | rfl <;> decide
    obtain ⟨h1, h2, h3, h4⟩ := this
    cases x <;> simp only [Facts.Has, h1, h2, h3, h4]
  · rw [Session.run_keeps a_ran schedule_fair a_objects a_program a_types (fun hb => h (a_belongs hb)) x]
    simp only [List.mem_cons, List.not_mem_nil, or_false, not_or] at h
    obtain ⟨h1, h2, h3, h4, h5, h6⟩ := h
    cases x <;> simp [Facts.Has, aFacts, h1, h2, h4, h5, h6, aPkg, aEnv, Tracking.plainEnv]

/-! ### The session -/

def ms : List Member := [a, b]
def imports (m q : Member) : Prop := m = b ∧ q = a
def visible (_ : Member) (_ : Object) : Prop := True

theorem a_ne_b : a ≠ b := fun h => by
  have : a.pkg.ifaces = b.pkg.ifaces := by rw [h]
  cases this

theorem session : Session false imports visible ms where
  fair := by
    intro m hm
    simp only [ms, List.mem_cons, List.not_mem_nil, or_false] at hm
    rcases hm with rfl | rfl <;> exact schedule_fair
  ran := by
    intro m hm
    simp only [ms, List.mem_cons, List.not_mem_nil, or_false] at hm
    rcases hm with rfl | rfl
    · exact a_ran
    · exact b_ran
  order := by
    rintro pre m post e q ⟨rfl, rfl⟩
    match pre, e with
    | [], e => simp only [ms, List.nil_append, List.cons.injEq] at e; exact absurd e.1 a_ne_b
    | p :: pre, e => simp only [ms, List.cons_append, List.cons.injEq] at e; simp [e.1]
  known := by
    intro m hm o x hx
    simp only [ms, List.mem_cons, List.not_mem_nil, or_false] at hm
    rcases hm with rfl | rfl
    · cases x <;> cases hx
    · exact ⟨a, ⟨rfl, rfl⟩, fun y => a_facts o y⟩
  passed := by
    rintro m hm q ⟨rfl, rfl⟩ o x _ hx
    exact (a_facts o x).2 hx

theorem packages : Packages ms where
  objects := by
    intro m hm
    simp only [ms, List.mem_cons, List.not_mem_nil, or_false] at hm
    rcases hm with rfl | rfl
    · exact ⟨a_objects.funcs, a_objects.distinct, a_objects.methods, a_objects.apart, fun _ _ => ⟨rfl, rfl⟩, fun _ _ _ _ => rfl,
        a_objects.interfaces, fun _ _ => rfl, fun o ms h => by cases h⟩
    · exact ⟨b_objects.funcs, b_objects.distinct, b_objects.methods, b_objects.apart, fun _ _ => ⟨rfl, rfl⟩, fun _ _ _ _ => rfl,
        b_objects.interfaces, fun _ _ => rfl, fun o ms h => by cases h⟩
  types := by
    intro m hm
    simp only [ms, List.mem_cons, List.not_mem_nil, or_false] at hm
    rcases hm with rfl | rfl
    · exact ⟨a_types.named, a_types.distinct, fun _ _ _ _ => rfl⟩
    · exact ⟨b_types.named, b_types.distinct, fun _ _ _ _ => rfl⟩
  interfaces := by
    intro m hm
    simp only [ms, List.mem_cons, List.not_mem_nil, or_false] at hm
    rcases hm with rfl | rfl
    · exact a_program
    · exact b_program
  apart := by
    simp only [ms, List.pairwise_cons, List.mem_singleton, List.not_mem_nil, false_implies, implies_true, List.Pairwise.nil, and_true,
      forall_eq]
    intro o h1 h2
    have h1 := a_belongs h1
    have h2 := b_belongs h2
    simp only [List.mem_cons, List.not_mem_nil, or_false] at h1 h2
    rcases h2 with rfl | rfl | rfl <;> simp at h1

def calls : Member → ConvSpec.CallKind := fun _ => onlyCalls
def X : Member → Extra := fun _ => none_

/-- **C41** applies: what `Use` and `New` of package `a` declare is known in `b`, and nothing else. -/
example : (∀ C, b.pkg.env.facts.codes 70 = some C ↔ ∃ c, Compared a.pkg 0 c ∧ C = c.codes) ∧
    ∀ n, b.pkg.env.facts.ctor 71 = some n ↔ ∃ c p, Compared a.pkg 1 c ∧ c.param = some p ∧ n = p.position :=
  have hm : b ∈ ms := by simp [ms]
  have hq : a ∈ ms := by simp [ms]
  ⟨(Session.declarations_travel session packages hm hq (f := 0) (by decide) (.direct ⟨rfl, rfl⟩ trivial)).1,
    (Session.declarations_travel session packages hm hq (f := 1) (by decide) (.direct ⟨rfl, rfl⟩ trivial)).2⟩

/-! ### In scope -/

theorem fit : ∀ m ∈ ms, Fit (X m) (calls m) m := by
  intro m hm
  simp only [ms, List.mem_cons, List.not_mem_nil, or_false] at hm
  rcases hm with rfl | rfl
  · exact .inl ⟨okPackage_scope (L := [0, 1]) (by decide) a_ran schedule_fair a_objects a_program (fun _ => rfl) (fun _ _ => rfl)
      (fun _ _ h => False.elim h), ⟨a_silent.2.2.2.2.1, a_silent.2.2.2.2.2.1, a_silent.2.2.2.2.2.2⟩⟩
  · exact .inl ⟨okPackage_scope (L := [0, 1]) (by decide) b_ran schedule_fair b_objects b_program (fun _ => rfl) (fun _ _ => rfl)
      (fun _ _ h => False.elim h), ⟨b_silent.2.2.2.2.1, b_silent.2.2.2.2.2.1, b_silent.2.2.2.2.2.2⟩⟩

theorem compatible : ∀ m ∈ ms, Linked.Compatible m := by
  intro m hm
  simp only [ms, List.mem_cons, List.not_mem_nil, or_false] at hm
  rcases hm with rfl | rfl
  · rintro ⟨x, hx, -⟩; rw [show a.out.ifaces = [] from a_silent.2.1] at hx; cases hx
  · rintro ⟨x, hx, -⟩; rw [show b.out.ifaces = [] from b_silent.2.1] at hx; cases hx

/-- All conversions of the program. -/
def conversions : List (GoType × GoType) :=
  allConvs (converting a) info aPkg.top ++ allConvs (converting b) info bPkg.top

theorem plain : ∀ m ∈ ms, plainTop (converting m) m.pkg.conv m.pkg.top = true := by
  intro m hm
  simp only [ms, List.mem_cons, List.not_mem_nil, or_false] at hm
  rcases hm with rfl | rfl <;> decide

theorem noAssertions : ∀ m ∈ ms, noAsserts (converting m) m.pkg.top = true := by
  intro m hm
  simp only [ms, List.mem_cons, List.not_mem_nil, or_false] at hm
  rcases hm with rfl | rfl <;> decide

theorem holds {T I : GoType} (h : Holds U ms calls T I) : (T, I) ∈ [(.pointer (.named 7), .named 9), (.named 8, GoType.named 20)] := by
  refine holdsAll_spec (L := conversions) (by decide) plain noAssertions (fun _ _ => rfl) ?_ h
  intro m hm x hx
  simp only [ms, List.mem_cons, List.not_mem_nil, or_false] at hm
  rcases hm with rfl | rfl
  · exact List.mem_append.2 (.inl hx)
  · exact List.mem_append.2 (.inr hx)

/-! ### What is recorded -/

def facts : Facts :=
  { aFacts with codes := fun o => if o = 80 ∨ o = 81 then some [b!"a-error"] else aFacts.codes o }

theorem recorded {o : Object} {x : Fact} (h : Recorded ms o x) : facts.Has o x := by
  obtain ⟨q, hq, hb, hx⟩ := h
  simp only [ms, List.mem_cons, List.not_mem_nil, or_false] at hq
  rcases hq with rfl | rfl
  · have hx := (a_facts o x).2 hx
    have hb := a_belongs hb
    have : o ≠ 80 ∧ o ≠ 81 := by
      simp only [List.mem_cons, List.not_mem_nil, or_false] at hb
      rcases hb with rfl | rfl | rfl | rfl | rfl | rfl <;> decide
    cases x with
    | codes S => simpa [Facts.Has, facts, this] using hx
    | _ => exact hx
  · have hb := b_belongs hb
    have : facts.codes o = bOut.facts.codes o ∧ facts.ctor o = bOut.facts.ctor o ∧ facts.errorType o = bOut.facts.errorType o ∧
        facts.interface o = bOut.facts.interface o := by
      simp only [List.mem_cons, List.not_mem_nil, or_false] at hb
      rcases hb with rfl | rfl | rfl <;> decide
    obtain ⟨h1, h2, h3, h4⟩ := this
    cases x <;> (simp only [Facts.Has, h1, h2, h3, h4]; exact hx)

theorem promised {I : GoType} {name : GoString} {S : CodeSet} (h : Promised ms I name S) :
    getNamedType I = some 20 ∧ name = b!"Get" ∧ S = [b!"a-error"] := by
  obtain ⟨o, tab, ho, hr, hm⟩ := h
  have hr : facts.interface o = some tab := recorded hr
  simp only [facts, aFacts] at hr
  split at hr
  · rename_i h20
    cases hr
    simp only [List.mem_singleton, Prod.mk.injEq] at hm
    exact ⟨by rw [ho, h20], hm⟩
  · cases hr

/-- `a` declares everything its conversions are about. -/
theorem a_conversions {I J : GoType} (h : Converted calls a I J) :
    (I = .named 9 ∨ I = .pointer (.named 7) ∨ I = .string) ∧ (J = .named 9 ∨ J = .pointer (.named 7) ∨ J = .string) := by
  have h := converted_mem (m := a) (plain a (by simp [ms])) rfl h
  have h : (I, J) ∈ [(GoType.named 9, GoType.named 9), (.pointer (.named 7), .pointer (.named 7)), (.string, .string), (.string, .string)] := h
  simp only [List.mem_cons, Prod.mk.injEq, List.not_mem_nil, or_false] at h
  rcases h with ⟨rfl, rfl⟩ | ⟨rfl, rfl⟩ | ⟨rfl, rfl⟩ | ⟨rfl, rfl⟩ <;> simp

theorem refers_b (o : Object) : Refers ms imports visible b o := by
  intro q hq _
  simp only [ms, List.mem_cons, List.not_mem_nil, or_false] at hq
  rcases hq with rfl | rfl
  · exact .inr (.direct ⟨rfl, rfl⟩ trivial)
  · exact .inl rfl

theorem refers_a {o : Object} (h : o ∉ [80, 81, 8]) : Refers ms imports visible a o := by
  intro q hq hb
  simp only [ms, List.mem_cons, List.not_mem_nil, or_false] at hq
  rcases hq with rfl | rfl
  · exact .inl rfl
  · exact absurd (b_belongs hb) h

theorem iface_mem {m : Member} (hm : m ∈ ms) {d : IfaceDecl} (hd : d ∈ m.pkg.ifaces) : m = a ∧ d = getter := by
  simp only [ms, List.mem_cons, List.not_mem_nil, or_false] at hm
  rcases hm with rfl | rfl
  · exact ⟨rfl, List.mem_singleton.1 hd⟩
  · cases hd

theorem typeChecked : TypeChecked U ms calls imports visible where
  methods := by
    intro m hm
    simp only [ms, List.mem_cons, List.not_mem_nil, or_false] at hm
    rcases hm with rfl | rfl <;> rfl
  target := by
    intro m hm I J hc o ho
    simp only [ms, List.mem_cons, List.not_mem_nil, or_false] at hm
    rcases hm with rfl | rfl
    · rcases (a_conversions hc).1 with rfl | rfl | rfl <;> cases ho <;> exact refers_a (by decide)
    · exact refers_b o
  source := by
    intro m hm I J hc name o ho
    simp only [ms, List.mem_cons, List.not_mem_nil, or_false] at hm
    rcases hm with rfl | rfl
    · rcases (a_conversions hc).2 with rfl | rfl | rfl <;> simp [U] at ho
      rw [← ho.2]; exact refers_a (by decide)
    · exact refers_b o
  own := by
    intro m hm d hd im him
    obtain ⟨rfl, rfl⟩ := iface_mem hm hd
    simp only [getter, List.mem_singleton, IfaceElement.method.injEq] at him
    subst him; exact ⟨90, by decide⟩
  embedded := by
    intro m hm d hd e he
    obtain ⟨rfl, rfl⟩ := iface_mem hm hd
    simp [getter] at he
  only := by
    intro m hm d hd name q hq
    obtain ⟨rfl, rfl⟩ := iface_mem hm hd
    simp [U, getter] at hq
    exact .inl ⟨_, List.mem_singleton.2 rfl, hq.1.symm, hq.2.symm⟩
  qualified := by
    intro m hm d hd id he
    obtain ⟨rfl, rfl⟩ := iface_mem hm hd
    simp [getter] at he

theorem supported : Linked.Supported U ms calls where
  named := by
    intro T I name q S hh hq hr
    have := holds hh
    simp only [List.mem_cons, Prod.mk.injEq, List.not_mem_nil, or_false] at this
    rcases this with ⟨rfl, rfl⟩ | ⟨rfl, rfl⟩
    · simp [U] at hq
    · exact ⟨a, by simp [ms], getter, List.mem_singleton.2 rfl, rfl⟩
  embedded := by
    intro m hm d hd id d' _ he
    obtain ⟨rfl, rfl⟩ := iface_mem hm hd
    simp [getter] at he
  found := by
    intro m hm d hd e he
    obtain ⟨rfl, rfl⟩ := iface_mem hm hd
    simp [getter] at he
  documented := by
    intro T I name S q hh hp hq
    obtain ⟨h1, rfl, rfl⟩ := promised hp
    have := holds hh
    simp only [List.mem_cons, Prod.mk.injEq, List.not_mem_nil, or_false] at this
    rcases this with ⟨rfl, rfl⟩ | ⟨rfl, rfl⟩
    · cases h1
    · simp [U] at hq
      rw [← hq]; exact ⟨_, a, by simp [ms], belongs_a (by decide), show aOut.facts.codes 90 = some [b!"a-error"] by decide⟩
  tight := by
    intro T J I name S m hm hh hc hp
    obtain ⟨h1, rfl, rfl⟩ := promised hp
    have := holds hh
    simp only [List.mem_cons, Prod.mk.injEq, List.not_mem_nil, or_false] at this
    have hc : (I, J) ∈ conversions := by
      simp only [ms, List.mem_cons, List.not_mem_nil, or_false] at hm
      rcases hm with rfl | rfl
      · exact List.mem_append.2 (.inl (converted_mem (plain a (by simp [ms])) rfl hc))
      · exact List.mem_append.2 (.inr (converted_mem (plain b (by simp [ms])) rfl hc))
    have hc : (I, J) ∈ [(GoType.named 9, GoType.named 9), (.pointer (.named 7), .pointer (.named 7)), (.string, .string), (.string, .string),
      (.named 9, .pointer (.named 7)), (.string, .string), (.named 9, .named 9), (.named 20, .named 8)] := hc
    simp only [List.mem_cons, Prod.mk.injEq, List.not_mem_nil, or_false] at hc
    exfalso
    rcases this with ⟨rfl, rfl⟩ | ⟨rfl, rfl⟩ <;> simp at hc
    subst hc; cases h1
  assertions := by
    intro T J I name S m hm _ ha
    exact absurd ha (not_asserted (plain m hm) (noAssertions m hm))
  declared := by
    intro T I name S q hh hp hq
    obtain ⟨h1, rfl, rfl⟩ := promised hp
    have := holds hh
    simp only [List.mem_cons, Prod.mk.injEq, List.not_mem_nil, or_false] at this
    rcases this with ⟨rfl, rfl⟩ | ⟨rfl, rfl⟩
    · cases h1
    · simp [U] at hq
      rw [← hq]; exact ⟨_, b, by simp [ms], belongs_b (by decide), show bOut.facts.codes 80 = some [b!"a-error"] by decide⟩
  constructors := by
    intro T I name S q p hh hp hq hr
    obtain ⟨h1, rfl, rfl⟩ := promised hp
    have := holds hh
    simp only [List.mem_cons, Prod.mk.injEq, List.not_mem_nil, or_false] at this
    rcases this with ⟨rfl, rfl⟩ | ⟨rfl, rfl⟩
    · cases h1
    · simp [U] at hq
      subst hq
      have hr : facts.ctor 80 = some p := recorded hr
      cases hr

/-- `Run` declares `a-error`. -/
theorem run_compared : Compared b.pkg 1 ⟨[b!"a-error"], none⟩ := by
  obtain ⟨c, h, hc⟩ := ((exported_codes b_ran schedule_fair b_objects b_program).1 1 (by decide) [b!"a-error"]).1 (by decide)
  have hp : c.param = none := by
    cases hp : c.param with
    | none => rfl
    | some p =>
      have := ((exported_constructors b_ran schedule_fair b_objects).1 1 (by decide) p.position).2 ⟨c, p, h, hp, rfl⟩
      rw [show bOut.facts.ctor (bPkg.env.funcObj 1) = none by decide] at this
      cases this
  cases c
  simp only at hc hp
  subst hc hp
  exact h

/-- The hypotheses of `linked_sound_partial` hold for this program: `Run` returns only `a-error`. -/
theorem run_sound {n : Nat} {o : Obj} (h : Returns U ms calls X n b 1 [] o) {code : GoString} (hc : o.may code) :
    code = [] ∨ code = b!"a-error" := by
  rcases linked_sound_partial session packages fit typeChecked supported compatible n (by simp [ms]) run_compared h hc with h | h | ⟨h, -⟩
  · exact .inl h
  · exact .inr (by simpa using h)
  · exact absurd rfl h

/-- Values of type `Impl` get into variables of type `Getter`. -/
theorem impl_holds : Holds U ms calls (.named 8) (.named 20) := by
  refine .converted (m := b) (by simp [ms]) (fun h => by have := Universe.isInterface_iff.2 h; cases this) nofun ⟨95, ?_⟩ ⟨1, rfl⟩
  refine ⟨.call 91 (.selector 92 (.ident ⟨93, b!"a", none⟩) ⟨94, b!"Use", none⟩) [.compositeLit 95 []], some (bEnv.func 1).type,
    .inl ⟨1, bodyRun, _, by simp [b, bPkg], rfl, List.mem_singleton.2 rfl, ?_⟩, ?_⟩
  · exact .inside nofun (List.mem_singleton.2 rfl) (.self nofun)
  · exact .argument (a := .compositeLit 95 []) (i := 0) (s := 3) rfl rfl rfl nofun rfl (by rintro ⟨t, h⟩; cases h)

/-- The execution: `Run` calls `Use`, which calls `Impl.Get` for `Getter.Get`, which calls `New`, which returns the error. -/
theorem run_returns : Returns U ms calls X 4 b 1 [] ⟨errT, b!"a-error"⟩ := by
  have honours : ∀ (m : Member) (_ : m ∈ ms) (id : NodeId) (o : Obj), Honours (comparing m) id o := by
    intro m hm id o x hx
    simp only [ms, List.mem_cons, List.not_mem_nil, or_false] at hm
    have : (comparing m).comments id = [] := by rcases hm with rfl | rfl <;> rfl
    rw [this] at hx
    cases hx
  have ma : a ∈ ms := by simp [ms]
  have mb : b ∈ ms := by simp [ms]
  have new : Returns U ms calls X 1 a 1 b!"a-error" ⟨errT, b!"a-error"⟩ := by
    refine .returned (body := bodyNew) (id := 40) rfl ⟨_, List.mem_singleton.2 rfl, .self⟩ (.inl rfl) ?_ (honours a ma _ _)
    refine .pointerLiteral (id := 41) (cid := 42) rfl rfl rfl fun field hf => ?_
    cases hf
    refine .inr (.inl ⟨by simp, _, rfl, .read (i := ⟨43, b!"code", some 1⟩) (x := 1) (fun s h => by cases h) rfl rfl (.argument ⟨0, _, rfl, rfl, rfl⟩)⟩)
  have get : Returns U ms calls X 2 b 0 [] ⟨errT, b!"a-error"⟩ := by
    refine .returned (body := bodyGet) (id := 80) rfl ⟨_, List.mem_singleton.2 rfl, .self⟩ (.inl rfl) ?_ (honours b mb _ _)
    refine .called rfl (.trusted (q := 71) (S := []) (a := b!"a-error") rfl ⟨rfl, by decide⟩ ?_ ⟨a, 1, .static (g := 1) ma (by decide), new⟩)
    intro p hp e he
    have : p = 0 := by
      rw [show (comparing b).facts.ctor 71 = some 0 by decide] at hp
      cases hp; rfl
    subst this
    cases he
    exact .constant rfl
  have use : Returns U ms calls X 3 a 0 [] ⟨errT, b!"a-error"⟩ := by
    refine .returned (body := bodyUse) (id := 1) rfl ⟨_, List.mem_singleton.2 rfl, .self⟩ (.inl rfl) ?_ (honours a ma _ _)
    refine .called rfl (.trusted (q := 90) (S := [b!"a-error"]) (a := []) rfl ⟨rfl, by decide⟩ ?_
      ⟨b, 0, .dynamic (I := .named 20) (T := .named 8) (name := b!"Get") (by decide) impl_holds (q' := 80) (by decide) (.static (g := 0) mb (by decide)), get⟩)
    intro p hp
    rw [show (comparing a).facts.ctor 90 = none by decide] at hp
    cases hp
  refine .returned (body := bodyRun) (id := 90) rfl ⟨_, List.mem_singleton.2 rfl, .self⟩ (.inl rfl) ?_ (honours b mb _ _)
  refine .called rfl (.trusted (q := 70) (S := [b!"a-error"]) (a := []) rfl ⟨rfl, by decide⟩ ?_ ⟨a, 0, .static (g := 0) ma (by decide), use⟩)
  intro p hp
  rw [show (comparing b).facts.ctor 70 = none by decide] at hp
  cases hp

end Example
end Serum.Props.Linked
