import Verif.MachineLinked
import Verif.Props.LinkedExample

/-!
# C43: what is returned when the program is executed step by step

`Spec/Machine.lean` is an operational semantics with a heap, in which errors are shared by several variables and changed through any of
them, function values keep variables, and functions are executed concurrently.  The theorems here are about its executions, of any
length.
-/

universe u

namespace Serum.Props.Machine
open Serum RunSpec SessionSpec Serum.Linked Serum.Runtime Serum.Machine Analyse Flow

/-- **C43**, for any program: an error returned by an execution of the machine is one of those described by `Runtime.Yields`, given
that `declared` covers what calls of functions known by their declaration return. -/
theorem returned_yields {P : Type u} {env : P → Env} {X : P → Extra} {exec : Object → P → FnId → Prop}
    (hdecl : ∀ p q k g t o, exec q k g → Yields (env k) (X k) (.ret g t) o → (X p).declared q t o)
    {p : P} {f : FnId} {arg : GoString} {o : Obj} (h : Returned env X exec p f arg o) : Yields (env p) (X p) (.ret f arg) o :=
  Serum.Machine.returned_yields hdecl h

/-- **C43**.  Consider a program made of any number of packages, and assume that the analyzer reports nothing for any of them.  Whenever
an execution of the program — of any length, starting any functions in any order and executing them concurrently, with errors that are
shared and changed — executes a function with a declaration, and this function returns a (non-nil) error, then every code that this
error has at this moment is empty or declared for the function, or it is the code given as argument.

Partial: as for C42 the packages have to be in scope, and the machine excludes what is listed in `Spec/Machine.lean`. -/
theorem machine_sound_partial {U : Universe} {ms : List Member} {calls : Member → ConvSpec.CallKind} {strict : Bool}
    {imports : Member → Member → Prop} {visible : Member → Object → Prop} {X : Member → Extra} (s : Session strict imports visible ms)
    (w : Packages ms) (hin : ∀ m ∈ ms, Fit (X m) (calls m) m) (ht : TypeChecked U ms calls imports visible)
    (hl : Linked.Supported U ms calls) (hcomp : ∀ m ∈ ms, Linked.Compatible m) {m : Member} (hm : m ∈ ms) {f : FnId} {c : FuncCodes}
    (hc : Compared m.pkg f c) {arg : GoString} {o : Obj} (h : Returned comparing X (Executes U ms calls) m f arg o)
    {code : GoString} (hcode : o.may code) : code = [] ∨ code ∈ c.codes ∨ (c.param ≠ none ∧ code = arg) := by
  obtain ⟨n, h⟩ := returned_returns h
  exact Linked.linked_sound_partial s w hin ht hl hcomp n hm hc h hcode

theorem read {P : Type u} {env : P → Env} {X : P → Extra} {exec : Object → P → FnId → Prop} {s : State P} {A : Act P} {F : Frame P} {e : Node}
    {i : Ident} {x : ObjId} {n : Nat} {cell : Cell P} {v : Val P} (h1 : VarUse (env F.pkg) e i x) (h2 : Varying env F.pkg e)
    (h3 : A.vars x = some n) (h4 : s.cells n = some cell) (h5 : cell.val = v) : Value env X exec s A F e v := h5 ▸ .read h1 h2 h3 h4

/-! ## Example: a shared error is changed

The program of `Props/Soundness.lean`: `F` calls `New("a-error")`, assigns the result to `err`, executes `err.TheCode = "b-error"` and
returns `err`. -/

namespace Shared
open Soundness

def env : Unit → Env := fun _ => exEnv
def X : Unit → Extra := fun _ => exExtra
def exec : Object → Unit → FnId → Prop := fun _ _ _ => False

theorem honest (id : NodeId) (o : Obj) : Honours exEnv id o := fun a ha => by
  simp [exEnv, Tracking.plainEnv, getReturnStmtAnnotations] at ha

theorem noParam (x : ObjId) : ¬ CodeParam exEnv 0 x := by
  rintro ⟨p, i, h, -⟩
  rw [show importErrorConstructorFact exEnv 0 = none from by decide] at h; cases h

/-- Executing `F`. -/
def frameF : Frame Unit := ⟨(), 0, bodyF, []⟩
/-- Executing `New("a-error")`. -/
def frameNew : Frame Unit := ⟨(), 1, bodyNew, b!"a-error"⟩

def callNew : Node := .call 3 (.ident ⟨4, b!"New", some 2⟩) [.basicLit 5]
def codeIdent : Node := .ident ⟨43, b!"code", some 1⟩
def newErrLit : Node := .unary 41 true (.compositeLit 42 [codeIdent])
def errIdent : Node := .ident ⟨31, b!"err", some 0⟩

def varsF : ObjId → Option Nat := fun y => if y = 0 then some 1 else none
def varsNew : ObjId → Option Nat := fun y => if y = 1 then some 0 else none

/-- The result of `New("a-error")` was assigned to `err`: address 0 is in a variable and is a value in `F`.  (The error code parameter
of `New` still exists.) -/
def assigned (o : Obj) (temps : List (Node × Val Unit)) : State Unit where
  objs := put (fun _ => none) 0 ⟨o, none, [((), 40)]⟩
  cells := put (put (fun _ => none) 0 ⟨1, [frameNew], .text b!"a-error"⟩) 1 ⟨0, [frameF], .err 0⟩
  acts := put (fun _ => none) 0 ⟨[frameF], fun y => if y = 0 then some 1 else none, temps, none⟩
  fns := []

theorem reach_assigned : Reachable env X exec (assigned ⟨errT, b!"a-error"⟩ [(callNew, .err 0), (.basicLit 5, .text b!"a-error")]) := by
  -- `F` is called …
  have r1 : Reachable env X exec _ :=
    .step .start (.spawn (c := .top () 0) (t := []) (.inl ⟨_, _, rfl⟩) (.plain (b := 0) rfl noParam ⟨rfl, nofun⟩))
  -- … evaluates `"a-error"` …
  have r2 := r1.step (.eval (a := 0) (F := frameF) (e := .basicLit 5) rfl rfl (.constant rfl))
  -- … and calls `New` with it, …
  have r3 := r2.step (.call (a := 0) (F := frameF) (e := callNew) (t := b!"a-error") (c := .top () 1) rfl rfl rfl nofun
    (.own rfl nofun ⟨.inl ⟨_, 2, rfl, rfl, rfl⟩, nofun⟩ (by
      intro p hp e he
      rw [show importErrorConstructorFact (env frameF.pkg) 1 = some 0 from by decide] at hp; cases hp
      cases he
      exact List.mem_cons_self ..))
    (.param (x := 1) (b := 1) (n := 0) rfl ⟨0, _, by decide, rfl, rfl⟩ rfl ⟨rfl, by
      intro a A e h
      simp only [State.temp, put] at h
      split at h
      · cases h; nofun
      · cases h⟩ rfl))
  -- … which evaluates `code`, creates the error, …
  have r4 := r3.step (.eval (a := 1) (F := frameNew) (e := codeIdent) (v := .text b!"a-error") rfl rfl (read (x := 1) ⟨rfl, rfl, rfl⟩ nofun rfl rfl rfl))
  have r5 := r4.step (.object (r := 0) (o := ⟨errT, b!"a-error"⟩) rfl)
  have r6 := r5.step (.eval (a := 1) (F := frameNew) (e := newErrLit) (v := .err 0) rfl rfl (.pointerComposite rfl rfl rfl (by
    intro fd hfd
    cases hfd
    exact .inr (.inl ⟨by simp [codeIdent], codeIdent, rfl, List.mem_cons_self ..⟩)) ⟨_, rfl, rfl, rfl⟩))
  -- … and returns it.
  have r7 := r6.step (.returned (b := 1) (F := frameNew) (id := 40) (e := newErrLit) (v := .err 0) (o := some ⟨errT, b!"a-error"⟩)
    rfl rfl ⟨_, List.mem_singleton.2 rfl, .self⟩ (.inl rfl) (List.mem_cons_self ..) rfl (fun x _ => honest _ _))
  -- `err` is declared and gets this value
  have r8 := r7.step (.declare (a := 0) (x := 0) (n := 1) rfl rfl)
  have r9 := r8.step (.assign (n := 1) (v := .err 0) rfl (.inl ⟨0, _, frameF, [], rfl, rfl, rfl, .assigned (e := callNew)
    (.inr ⟨1, _, _, ⟨newErr, by simp [bodyF, frameF], .self⟩, rfl, 0, _, _, rfl, rfl, rfl, rfl⟩) (List.mem_cons_self ..)⟩))
  refine cast (congrArg _ ?_) r9
  rw [assigned, State.mk.injEq]
  refine ⟨?_, ?_, ?_, rfl⟩ <;> (funext i; match i with | 0 => rfl | 1 => rfl | i + 2 => rfl)

/-- Every execution which holds the error is an execution of `F`. -/
theorem uses {o : Obj} {temps : List (Node × Val Unit)} {G : Frame Unit} (h : (assigned o temps).Uses G 0) : G ∈ [frameF] := by
  rcases h with ⟨n, cell, hc, hG, hv⟩ | ⟨a, A, e, ha, hG, -⟩
  · simp only [assigned, put] at hc
    split at hc
    · cases hc; exact hG
    · split at hc
      · cases hc; cases hv
      · cases hc
  · simp only [assigned, put] at ha
    split at ha
    · cases ha; exact hG
    · cases ha

/-- `F` can return the error as it was created … -/
theorem returned_a : Returned env X exec () 0 [] ⟨errT, b!"a-error"⟩ := by
  have r := reach_assigned.step (.eval (a := 0) (F := frameF) (e := errIdent) (v := .err 0) rfl rfl (read (x := 0) ⟨rfl, rfl, rfl⟩ nofun rfl rfl rfl))
  exact ⟨_, frameF, _, r, .returned (b := 0) (F := frameF) (id := 30) (e := errIdent) (v := .err 0) (o := some ⟨errT, b!"a-error"⟩)
    rfl rfl ⟨retErr, by simp [bodyF, frameF], .self⟩ (.inl rfl) (List.mem_cons_self ..) rfl (fun x _ => honest _ _), rfl, rfl, rfl⟩

/-- … or with the code that was stored in it. -/
theorem returned_b : Returned env X exec () 0 [] ⟨errT, b!"b-error"⟩ := by
  have r1 : Reachable env X exec (assigned ⟨errT, b!"a-error"⟩
      [(.basicLit 14, .text b!"b-error"), (callNew, .err 0), (.basicLit 5, .text b!"a-error")]) := by
    refine cast (congrArg _ ?_) (reach_assigned.step (.eval (a := 0) (F := frameF) (e := .basicLit 14) rfl rfl (.constant rfl)))
    rw [assigned, State.mk.injEq]
    exact ⟨rfl, rfl, funext fun i => (match i with | 0 => rfl | i + 1 => rfl), rfl⟩
  have r2 := r1.step (.store (a := 0) (F := frameF) (id := 10) (k := 0) (sid := 11) (r := 0) (u := b!"b-error") rfl rfl
    ⟨setCode, by simp [bodyF, frameF], .self⟩ rfl rfl rfl rfl (fun _ _ => ⟨_, rfl, List.mem_cons_self ..⟩) (fun G hG => .inl (uses hG)))
  have r3 := r2.step (.eval (a := 0) (F := frameF) (e := errIdent) (v := .err 0) rfl rfl (read (x := 0) ⟨rfl, rfl, rfl⟩ nofun rfl rfl rfl))
  exact ⟨_, frameF, _, r3, .returned (b := 0) (F := frameF) (id := 30) (e := errIdent) (v := .err 0) (o := some ⟨errT, b!"b-error"⟩)
    rfl rfl ⟨retErr, by simp [bodyF, frameF], .self⟩ (.inl rfl) (List.mem_cons_self ..) rfl (fun x _ => honest _ _), rfl, rfl, rfl⟩

end Shared

/-! ## Example: a function literal

```go
func F() error {
	err := &Err{"a-error"}
	set := func() { err.TheCode = "b-error" }
	set()
	return err
}
```

Objects: `err` 0, `set` 1; functions: `F` 0, the literal 1. -/

namespace Literal
open Soundness (errT)

def newErrLit : Node := .unary 3 true (.compositeLit 4 [.basicLit 5])
def newErr : Node := .assign 1 [.ident ⟨2, b!"err", some 0⟩] [newErrLit]
def setCode : Node := .assign 10 [.selector 11 (.ident ⟨12, b!"err", some 0⟩) ⟨13, b!"TheCode", none⟩] [.basicLit 14]
def lit : Node := .funcLit 16 1 ⟨[], none, 38⟩ [setCode]
def newSet : Node := .assign 18 [.ident ⟨19, b!"set", some 1⟩] [lit]
def setIdent : Node := .ident ⟨22, b!"set", some 1⟩
def callSet : Node := .call 21 setIdent []
def errIdent : Node := .ident ⟨31, b!"err", some 0⟩
def retErr : Node := .ret 30 [errIdent]
def bodyF : List Node := [newErr, newSet, .other 20 [callSet], retErr]

def litEnv : Env :=
  { Tracking.plainEnv [⟨.var, 25, .other⟩, ⟨.var, 26, .other⟩] with
    funcs := [⟨100, some ⟨101, b!"F", none⟩, ⟨[], some [⟨[], 11⟩], 10⟩, some bodyF, 20, 100⟩,
      ⟨102, none, ⟨[], none, 38⟩, some [setCode], 40, 60⟩]
    funcObj := fun f => 70 + f
    typeOf := fun _ => .pointer (.named 7)
    implCode := fun t => t == .pointer (.named 7)
    value := fun n => if n = 5 then some (.str b!"a-error") else if n = 14 then some (.str b!"b-error") else none
    facts := ⟨fun _ => none, fun _ => none, fun o => if o = 7 then some errT else none, fun _ => none⟩ }

def env : Unit → Env := fun _ => litEnv
def X : Unit → Extra := fun _ => Soundness.exExtra
def exec : Object → Unit → FnId → Prop := fun _ _ _ => False

theorem honest (id : NodeId) (o : Obj) : Honours litEnv id o := fun a ha => by
  simp [litEnv, Tracking.plainEnv, getReturnStmtAnnotations] at ha

theorem noParam (f : FnId) (x : ObjId) : ¬ CodeParam litEnv f x := by
  rintro ⟨p, i, h, -⟩
  have : ∀ b : Bool, (if b = true then (none : Option Nat) else none) ≠ some p := by intro b; cases b <;> nofun
  exact this _ h

def frameF : Frame Unit := ⟨(), 0, bodyF, []⟩
def frameLit : Frame Unit := ⟨(), 1, [setCode], []⟩

/-- The variables of `F`. -/
def vars : ObjId → Option Nat := fun y => if y = 1 then some 1 else if y = 0 then some 0 else none

/-- The function value. -/
def set : Closure Unit := ⟨(), 1, vars, [frameF]⟩

/-- It changes the error which `F` returns. -/
theorem returned_b : Returned env X exec () 0 [] ⟨errT, b!"b-error"⟩ := by
  -- `F` is called, declares `err` and `set`,
  have r1 : Reachable env X exec _ :=
    .step .start (.spawn (c := .top () 0) (t := []) (.inl ⟨_, _, rfl⟩) (.plain (b := 0) rfl (noParam 0) ⟨rfl, nofun⟩))
  have r2 := r1.step (.declare (a := 0) (x := 0) (n := 0) rfl rfl)
  have r3 := r2.step (.declare (a := 0) (x := 1) (n := 1) rfl rfl)
  -- creates the error,
  have r4 := r3.step (.eval (a := 0) (F := frameF) (e := .basicLit 5) rfl rfl (.constant rfl))
  have r5 := r4.step (.object (r := 0) (o := ⟨errT, b!"a-error"⟩) rfl)
  have r6 := r5.step (.eval (a := 0) (F := frameF) (e := newErrLit) (v := .err 0) rfl rfl (.pointerComposite rfl rfl rfl (by
    intro fd hfd
    cases hfd
    exact .inr (.inl ⟨by simp, .basicLit 5, rfl, List.mem_cons_self ..⟩)) ⟨_, rfl, rfl, rfl⟩))
  have r7 := r6.step (.assign (n := 0) (v := .err 0) rfl (.inl ⟨0, _, frameF, [], rfl, rfl, rfl, .assigned (e := newErrLit)
    (.inr ⟨1, _, _, ⟨newErr, by simp [bodyF, frameF], .self⟩, rfl, 0, _, _, rfl, rfl, rfl, rfl⟩) (List.mem_cons_self ..)⟩))
  -- creates the function value,
  have r8 := r7.step (.eval (a := 0) (F := frameF) (e := lit) (v := .fn set) rfl rfl (.literal ⟨16, 1, _, _, rfl,
    ⟨newSet, by simp [bodyF, frameF], .child (c := lit) rfl (.tail _ (.head _)) .self⟩, rfl, rfl, rfl, rfl, rfl, by
      intro x
      refine ⟨?_, fun _ _ => rfl⟩
      rintro (⟨h1, h2⟩ | h)
      · match x, h1 with
        | 0, h1 => exact absurd h1 (by decide)
        | 1, h1 => exact absurd h1 (by decide)
        | x + 2, _ => rfl
      · exact absurd h (noParam _ _)⟩))
  have r9 := r8.step (.assign (n := 1) (v := .fn set) rfl (.inl ⟨0, _, frameF, [], rfl, rfl, rfl, .assigned (e := lit)
    (.inr ⟨18, _, _, ⟨newSet, by simp [bodyF, frameF], .self⟩, rfl, 0, _, _, rfl, rfl, rfl, rfl⟩) (List.mem_cons_self ..)⟩))
  -- and calls it,
  have r10 := r9.step (.eval (a := 0) (F := frameF) (e := setIdent) (v := .fn set) rfl rfl (read (x := 1) ⟨rfl, rfl, rfl⟩ nofun rfl rfl rfl))
  have r11 := r10.step (.call (a := 0) (F := frameF) (e := callSet) (t := []) (c := set) rfl rfl rfl nofun
    (.throughVar (x := 1) (j := ⟨22, b!"set", some 1⟩) rfl nofun ⟨_, rfl, rfl, nofun⟩ ⟨rfl, rfl, rfl⟩ (List.mem_cons_self ..))
    (.plain (b := 1) rfl (noParam 1) ⟨rfl, by
      intro i A e h
      simp only [State.temp, put] at h
      split at h
      · cases h; nofun
      · cases h⟩))
  -- which stores into the error held by `F`.
  have r12 := r11.step (.eval (a := 1) (F := frameLit) (e := .basicLit 14) rfl rfl (.constant rfl))
  have r13 := r12.step (.store (a := 1) (F := frameLit) (rest := [frameF]) (id := 10) (k := 0) (sid := 11) (r := 0) (u := b!"b-error") rfl rfl
    ⟨setCode, by simp [frameLit], .self⟩ rfl rfl rfl rfl (fun _ _ => ⟨_, rfl, List.mem_cons_self ..⟩) (by
      intro G hG
      left
      rcases hG with ⟨n, cell, hc, hG, -⟩ | ⟨i, A, e, hA, hG, -⟩
      · refine List.mem_cons_of_mem frameLit ?_
        simp only [State.temp, put] at hc
        split at hc
        · cases hc; exact hG
        · split at hc
          · cases hc; exact hG
          · cases hc
      · simp only [State.temp, put] at hA
        split at hA
        · cases hA; exact hG
        · refine List.mem_cons_of_mem frameLit ?_
          split at hA
          · cases hA; exact hG
          · cases hA))
  -- `F` returns it.
  have r14 := r13.step (.eval (a := 0) (F := frameF) (e := errIdent) (v := .err 0) rfl rfl (read (x := 0) ⟨rfl, rfl, rfl⟩ nofun rfl rfl rfl))
  exact ⟨_, frameF, _, r14, .returned (b := 0) (F := frameF) (id := 30) (e := errIdent) (v := .err 0) (o := some ⟨errT, b!"b-error"⟩)
    rfl rfl ⟨retErr, by simp [bodyF, frameF], .self⟩ (.inl rfl) (List.mem_cons_self ..) rfl (fun x _ => honest _ _), rfl, rfl, rfl⟩

end Literal

/-! ## Example: two packages

The program of `Props/LinkedExample.lean`: `b.Run` calls `a.Use` with a value of type `b.Impl`, `a.Use` calls its method `Get` (through the
interface), which calls `a.New("a-error")`. -/

namespace Packages
open Linked.Example
open Soundness (errT)

def callUse : Node := .call 91 (.selector 92 (.ident ⟨93, b!"a", none⟩) ⟨94, b!"Use", none⟩) [.compositeLit 95 []]
def callGet : Node := .call 2 (.selector 3 (.ident ⟨4, b!"g", some 0⟩) ⟨5, b!"Get", none⟩) []
def callNew : Node := .call 81 (.selector 82 (.ident ⟨83, b!"a", none⟩) ⟨85, b!"New", none⟩) [.basicLit 84]
def codeIdent : Node := .ident ⟨43, b!"code", some 1⟩
def newErrLit : Node := .unary 41 true (.compositeLit 42 [codeIdent])

def frameRun : Frame Member := ⟨b, 1, bodyRun, []⟩
def frameUse : Frame Member := ⟨a, 0, bodyUse, []⟩
def frameGet : Frame Member := ⟨b, 0, bodyGet, []⟩
def frameNew : Frame Member := ⟨a, 1, bodyNew, b!"a-error"⟩

theorem honest {m : Member} (hm : m ∈ ms) (id : NodeId) (o : Obj) : Honours (comparing m) id o := by
  intro x hx
  simp only [ms, List.mem_cons, List.not_mem_nil, or_false] at hm
  have : (comparing m).comments id = [] := by rcases hm with rfl | rfl <;> rfl
  rw [this] at hx
  cases hx

theorem noParam {m : Member} {f : FnId} (h : importErrorConstructorFact (comparing m) f = none) (x : ObjId) : ¬ CodeParam (comparing m) f x := by
  rintro ⟨p, i, h', -⟩
  rw [h] at h'; cases h'

theorem noCtor {m : Member} {q : Object} (h : (comparing m).facts.ctor q = none) {args : List Node} {shift : Nat} {t : GoString}
    {temps : List (Node × Val Member)} :
    ∀ p, (comparing m).facts.ctor q = some p → ∀ e, args[p + shift]? = some e → (e, .text t) ∈ temps := by
  intro p hp
  rw [h] at hp; cases hp

/-- `Run` returns the error. -/
theorem returned_run : Returned comparing X (Executes U ms calls) b 1 [] ⟨errT, b!"a-error"⟩ := by
  have ma : a ∈ ms := by simp [ms]
  have mb : b ∈ ms := by simp [ms]
  -- `Run` is called,
  have r1 : Reachable comparing X (Executes U ms calls) _ :=
    .step .start (.spawn (c := .top b 1) (t := []) (.inl ⟨_, _, rfl⟩) (.plain (b := 0) rfl (noParam (by decide)) ⟨rfl, nofun⟩))
  -- calls `Use`,
  have r2 := r1.step (.call (a := 0) (F := frameRun) (e := callUse) (t := []) (c := .top a 0) rfl rfl rfl nofun
    (.trusted (q := 70) (S := [b!"a-error"]) rfl ⟨rfl, by decide⟩ (noCtor (by decide)) (.static (g := 0) ma (by decide)))
    (.plain (b := 1) rfl (noParam (by decide)) ⟨rfl, by
      intro i A e h
      simp only [put] at h
      split at h
      · cases h; nofun
      · cases h⟩))
  -- which calls `Get`,
  have r3 := r2.step (.call (a := 1) (F := frameUse) (e := callGet) (t := []) (c := .top b 0) rfl rfl rfl nofun
    (.trusted (q := 90) (S := [b!"a-error"]) rfl ⟨rfl, by decide⟩ (noCtor (by decide))
      (.dynamic (I := .named 20) (T := .named 8) (name := b!"Get") (by decide) impl_holds (q' := 80) (by decide) (.static (g := 0) mb (by decide))))
    (.plain (b := 2) rfl (noParam (by decide)) ⟨rfl, by
      intro i A e h
      simp only [put] at h
      split at h
      · cases h; simp
      · split at h
        · cases h; nofun
        · cases h⟩))
  -- which calls `New("a-error")`,
  have r4 := r3.step (.eval (a := 2) (F := frameGet) (e := .basicLit 84) rfl rfl (.constant rfl))
  have r5 := r4.step (.call (a := 2) (F := frameGet) (e := callNew) (t := b!"a-error") (c := .top a 1) rfl rfl rfl nofun
    (.trusted (q := 71) (S := []) rfl ⟨rfl, by decide⟩ (by
      intro p hp e he
      rw [show (comparing frameGet.pkg).facts.ctor 71 = some 0 by decide] at hp
      cases hp
      cases he
      exact List.mem_cons_self ..) (.static (g := 1) ma (by decide)))
    (.param (x := 1) (b := 3) (n := 0) rfl ⟨0, _, rfl, rfl, rfl⟩ rfl ⟨rfl, by
      intro i A e h
      simp only [State.temp, put] at h
      split at h
      · cases h; simp
      · split at h
        · cases h; simp
        · split at h
          · cases h; nofun
          · cases h⟩ rfl))
  -- which returns the error,
  have r6 := r5.step (.eval (a := 3) (F := frameNew) (e := codeIdent) (v := .text b!"a-error") rfl rfl
    (read (x := 1) ⟨rfl, rfl, rfl⟩ (fun s h => by cases h) rfl rfl rfl))
  have r7 := r6.step (.object (r := 0) (o := ⟨errT, b!"a-error"⟩) rfl)
  have r8 := r7.step (.eval (a := 3) (F := frameNew) (e := newErrLit) (v := .err 0) rfl rfl (.pointerComposite rfl rfl rfl (by
    intro fd hfd
    cases hfd
    exact .inr (.inl ⟨by simp [codeIdent], codeIdent, rfl, List.mem_cons_self ..⟩)) ⟨_, rfl, rfl, rfl⟩))
  have r9 := r8.step (.returned (b := 3) (F := frameNew) (id := 40) (e := newErrLit) (v := .err 0) (o := some ⟨errT, b!"a-error"⟩)
    rfl rfl ⟨_, List.mem_singleton.2 rfl, .self⟩ (.inl rfl) (List.mem_cons_self ..) rfl (fun x _ => honest ma _ _))
  -- and then each of them does so.
  have r10 := r9.step (.returned (b := 2) (F := frameGet) (id := 80) (e := callNew) (v := .err 0) (o := some ⟨errT, b!"a-error"⟩)
    rfl rfl ⟨_, List.mem_singleton.2 rfl, .self⟩ (.inl rfl) (List.mem_cons_self ..) rfl (fun x _ => honest mb _ _))
  have r11 := r10.step (.returned (b := 1) (F := frameUse) (id := 1) (e := callGet) (v := .err 0) (o := some ⟨errT, b!"a-error"⟩)
    rfl rfl ⟨_, List.mem_singleton.2 rfl, .self⟩ (.inl rfl) (List.mem_cons_self ..) rfl (fun x _ => honest ma _ _))
  exact ⟨_, frameRun, _, r11, .returned (b := 0) (F := frameRun) (id := 90) (e := callUse) (v := .err 0) (o := some ⟨errT, b!"a-error"⟩)
    rfl rfl ⟨_, List.mem_singleton.2 rfl, .self⟩ (.inl rfl) (List.mem_cons_self ..) rfl (fun x _ => honest mb _ _), rfl, rfl, rfl⟩

/-- The hypotheses of `machine_sound_partial` hold. -/
example {o : Obj} (h : Returned comparing X (Executes U ms calls) b 1 [] o) {code : GoString} (hc : o.may code) :
    code = [] ∨ code = b!"a-error" := by
  rcases machine_sound_partial session packages fit typeChecked supported compatible (by simp [ms]) run_compared h hc with h | h | ⟨h, -⟩
  · exact .inl h
  · exact .inr (by simpa using h)
  · exact absurd rfl h

end Packages

end Serum.Props.Machine
