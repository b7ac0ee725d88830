import Verif.Spec.Machine

/-! # The invariant of the machine -/

universe u

namespace Serum.Machine
open Flow Analyse Serum.Runtime Props.Calls Props.Extract

variable {P : Type u} {env : P → Env} {X : P → Extra} {exec : Object → P → FnId → Prop}

/-! ## What the holders of values may hold -/

variable (env X) in
/-- The errors a variable or an expression of an execution may have. -/
def Gives (F : Frame P) : Place → Obj → Prop
  | .var x => Yields (env F.pkg) (X F.pkg) (.var F.fn F.body F.arg x)
  | .expr e => Yields (env F.pkg) (X F.pkg) (.expr F.fn F.body F.arg e)

variable (env X) in
/-- The errors that calling a function value held by it may return. -/
def Calls (F : Frame P) : Place → Obj → Prop
  | .var x => Yields (env F.pkg) (X F.pkg) (.callVar F.fn F.body x)
  | .expr e => fun o => (∀ j y, VarUse (env F.pkg) e j y → Yields (env F.pkg) (X F.pkg) (.callVar F.fn F.body y) o) ∧
      ((¬ ∃ j y, VarUse (env F.pkg) e j y) → Yields (env F.pkg) (X F.pkg) (.apply F.fn F.body e) o)

variable (env X) in
/-- The texts. -/
def Says (F : Frame P) (h : Place) (t : GoString) : Prop := Text (env F.pkg) (X F.pkg) F.fn F.body F.arg h t

variable (env X) in
/-- The errors that calling the function value may return. -/
def Rets (c : Closure P) (t : GoString) (o : Obj) : Prop := Yields (env c.pkg) (X c.pkg) (.ret c.fn t) o

variable (env X) in
/-- The error at this address may be held. -/
def Fine (F : Frame P) (h : Place) (t : Thing P) : Prop :=
  Gives env X F h t.obj ∧ ∀ x S, t.var = some (x, S) → ∀ o, o.et = t.obj.et → (∀ G ∈ S, Gives env X G (.var x) o) →
    (∀ i ∈ t.via, Honours (env i.1) i.2 o) → Gives env X F h o

variable (env X) in
/-- The value may be held. -/
def Fits (s : State P) (F : Frame P) (h : Place) : Val P → Prop
  | .text t => Says env X F h t
  | .err r => ∀ t, s.objs r = some t → Fine env X F h t
  | .fn c => ∀ t o, Rets env X c t o → Calls env X F h o
  | _ => True

/-! ## Scopes -/

variable (env) in
/-- The variables of an execution with these frames. -/
def Visible (s : State P) (scope : List (Frame P)) (vars : ObjId → Option Nat) : Prop :=
  ∀ x n, vars x = some n → ∃ cell, s.cells n = some cell ∧ cell.var = x ∧ (∀ G ∈ cell.scope, G ∈ scope) ∧
    ∀ G ∈ scope, G ∈ cell.scope ∨ Outside env G x

variable (env) in
/-- The function is nested in those executed. -/
structure Nested (p : P) (g : FnId) (outer : List (Frame P)) : Prop where
  pkg : ∀ G ∈ outer, G.pkg = p
  body : ∀ body, ((env p).func g).body = some body → ∀ G ∈ outer, ∀ n, Occurs n body → Occurs n G.body
  results : ∀ fields n x, ((env p).func g).type.results = some fields → n ∈ fields.flatMap Field.names → n.obj = some x →
    ∀ G ∈ outer, LitResult G.body x

variable (env) in
structure ClosureOk (s : State P) (c : Closure P) : Prop where
  nested : Nested env c.pkg c.fn c.outer
  visible : Visible env s c.outer c.vars
  outside : ∀ x n, c.vars x = some n → ¬ Declared (env c.pkg) c.fn x ∧ ¬ CodeParam (env c.pkg) c.fn x

variable (env) in
/-- The value does not refer to something that does not exist. -/
def Sane (s : State P) : Val P → Prop
  | .err r => s.objs r ≠ none
  | .fn c => ClosureOk env s c
  | _ => True

variable (env X) in
/-- The value may be held in all these executions. -/
def Ok (s : State P) (scope : List (Frame P)) (h : Place) (v : Val P) : Prop := Sane env s v ∧ ∀ F ∈ scope, Fits env X s F h v

variable (env X) in
/-- Whatever the function returns may be the value of the call. -/
def Promise (F : Frame P) (scope : List (Frame P)) (e : Node) : Prop :=
  ∀ G ∈ scope, (∀ t, Says env X G (.expr e) t) ∧ (∀ o, Calls env X G (.expr e) o) ∧
    ∀ o, Yields (env F.pkg) (X F.pkg) (.ret F.fn F.arg) o → Gives env X G (.expr e) o

variable (env X) in
structure ActOk (s : State P) (A : Act P) (F : Frame P) (rest : List (Frame P)) : Prop where
  scope : A.scope = F :: rest
  body : ((env F.pkg).func F.fn).body = some F.body
  nested : Nested env F.pkg F.fn rest
  visible : Visible env s A.scope A.vars
  temps : ∀ e v, (e, v) ∈ A.temps → Ok env X s A.scope (.expr e) v
  caller : ∀ a e A', A.caller = some (a, e) → s.acts a = some A' → Promise env X F A'.scope e

variable (env X) in
structure Inv (s : State P) : Prop where
  cells : ∀ n cell, s.cells n = some cell → Ok env X s cell.scope (.var cell.var) cell.val
  acts : ∀ a A, s.acts a = some A → ∃ F rest, ActOk env X s A F rest
  fns : ∀ c ∈ s.fns, ClosureOk env s c

/-! ## Facts about `Yields` -/

theorem gives_call {F : Frame P} {e : Node} {id : NodeId} {fn : Node} {args : List Node} (hu : e.unparen = .call id fn args) {o : Obj}
    (h : Gives env X F (.expr e) o) : Yields (env F.pkg) (X F.pkg) (.call F.fn F.body F.arg id fn args) o := by
  change Yields (env F.pkg) (X F.pkg) (.expr F.fn F.body F.arg e) o at h
  generalize hO : Origin.expr F.fn F.body F.arg e = O at h
  induction h with
  | called h1 h2 _ =>
    cases hO
    rw [hu] at h1; cases h1; exact h2
  | storedExpr h1 h2 ih => cases hO; exact .storedCall (ih rfl) h2
  | derefsExpr h => cases hO; exact .derefsCall h
  | read h _ _ _ => cases hO; rw [hu] at h; cases h
  | unresolved h _ _ => cases hO; rw [hu] at h; cases h
  | address h _ _ _ _ => cases hO; rw [hu] at h; cases h
  | addressUnresolved h _ _ _ => cases hO; rw [hu] at h; cases h
  | literal h _ _ => cases hO; rw [hu] at h; cases h
  | pointerLiteral h _ _ _ => cases hO; rw [hu] at h; cases h
  | pointer h _ _ _ => cases hO; rw [hu] at h; cases h
  | basic h _ => cases hO; rw [hu] at h; cases h
  | untagged _ h _ _ => cases hO; exact absurd hu (h _ _ _)
  | unknown h => cases hO; rw [hu] at h; cases h
  | _ => cases hO

theorem gives_stored {F : Frame P} {h : Place} {o : Obj} {u : GoString} (hg : Gives env X F h o)
    (hs : Stored (env F.pkg) (X F.pkg) F.fn F.body F.arg o.et u) : Gives env X F h { o with field := u } := by
  cases h with
  | var x => exact .stored hg hs
  | expr e => exact .storedExpr hg hs

theorem gives_derefs {F : Frame P} (h : Place) (o : Obj) (hd : Derefs (X F.pkg) F.body) : Gives env X F h o := by
  cases h with
  | var x => exact .derefs hd
  | expr e => exact .derefsExpr hd

theorem gives_free {F : Frame P} {x : ObjId} (o : Obj) (h : Free env X F x) : Gives env X F (.var x) o := by
  rcases h with h | h
  · exact .outside h.1
  · exact .wild h

theorem says_free {F : Frame P} {x : ObjId} (t : GoString) (h : Free env X F x) : Says env X F (.var x) t := by
  rcases h with h | h
  · exact .outside h.2 h.1
  · exact .wild h

theorem calls_free {F : Frame P} {x : ObjId} (o : Obj) (h : Free env X F x) : Calls env X F (.var x) o := by
  rcases h with h | h
  · exact .fnOutside h.1
  · exact .fnWild h

/-- A place that may have anything. -/
theorem fits_any {s : State P} {F : Frame P} {h : Place} (h1 : ∀ t, Says env X F h t) (h2 : ∀ o, Gives env X F h o)
    (h3 : ∀ o, Calls env X F h o) (v : Val P) : Fits env X s F h v := by
  cases v with
  | text t => exact h1 t
  | err r => exact fun t _ => ⟨h2 _, fun _ _ _ o _ _ _ => h2 o⟩
  | fn c => exact fun t o _ => h3 o
  | nil => trivial
  | other => trivial

theorem fits_free {s : State P} {F : Frame P} {x : ObjId} (h : Free env X F x) (v : Val P) : Fits env X s F (.var x) v :=
  fits_any (fun t => says_free t h) (fun o => gives_free o h) (fun o => calls_free o h) v

/-- What may be held here may be held there. -/
theorem Fits.mono {s : State P} {F : Frame P} {h h' : Place} {v : Val P} (hv : Fits env X s F h v)
    (h1 : ∀ t, v = .text t → Says env X F h t → Says env X F h' t) (h2 : ∀ o, Gives env X F h o → Gives env X F h' o)
    (h3 : ∀ c, v = .fn c → ∀ o, Calls env X F h o → Calls env X F h' o) : Fits env X s F h' v := by
  cases v with
  | text t => exact h1 t rfl hv
  | err r => exact fun t ht => ⟨h2 _ (hv t ht).1, fun x S hS o ho hG hH => h2 _ ((hv t ht).2 x S hS o ho hG hH)⟩
  | fn c => exact fun t o hr => h3 c rfl o (hv t o hr)
  | nil => trivial
  | other => trivial

/-! ## Changes of the state -/

/-- Variables keep their place. -/
def Keeps (s s' : State P) : Prop :=
  ∀ n cell, s.cells n = some cell → ∃ cell', s'.cells n = some cell' ∧ cell'.var = cell.var ∧ cell'.scope = cell.scope

theorem Keeps.refl (s s' : State P) (h : s'.cells = s.cells) : Keeps s s' := fun _ cell hc => ⟨cell, h ▸ hc, rfl, rfl⟩

theorem Visible.keeps {s s' : State P} (hk : Keeps s s') {scope : List (Frame P)} {vars : ObjId → Option Nat}
    (h : Visible env s scope vars) : Visible env s' scope vars := fun x n hx => by
  obtain ⟨cell, h1, h2, h3, h4⟩ := h x n hx
  obtain ⟨cell', h5, h6, h7⟩ := hk n cell h1
  exact ⟨cell', h5, h6.trans h2, h7 ▸ h3, h7 ▸ h4⟩

theorem ClosureOk.keeps {s s' : State P} (hk : Keeps s s') {c : Closure P} (h : ClosureOk env s c) : ClosureOk env s' c :=
  ⟨h.nested, h.visible.keeps hk, h.outside⟩

theorem Sane.keeps {s s' : State P} (hk : Keeps s s') (ho : ∀ r, s.objs r ≠ none → s'.objs r ≠ none) {v : Val P} (h : Sane env s v) :
    Sane env s' v := by
  cases v with
  | err r => exact ho r h
  | fn c => exact ClosureOk.keeps hk h
  | _ => trivial

theorem Fits.same {s s' : State P} (ho : s'.objs = s.objs) {F : Frame P} {h : Place} {v : Val P} (hf : Fits env X s F h v) :
    Fits env X s' F h v := by
  cases v with
  | err r => exact fun t ht => hf t (ho ▸ ht)
  | _ => exact hf

theorem Ok.same {s s' : State P} (hk : Keeps s s') (ho : s'.objs = s.objs) {scope : List (Frame P)} {h : Place} {v : Val P}
    (hv : Ok env X s scope h v) : Ok env X s' scope h v :=
  ⟨hv.1.keeps hk fun _ hr => ho ▸ hr, fun F hF => (hv.2 F hF).same ho⟩

/-- The errors in the heap stay fine for all who hold them. -/
def Heals (env : P → Env) (X : P → Extra) (s s' : State P) : Prop :=
  ∀ F r, s.Uses F r → ∀ t t', s.objs r = some t → s'.objs r = some t' → ∀ h, Fine env X F h t → Fine env X F h t'

theorem Fits.heals {s s' : State P} (hh : Heals env X s s') {F : Frame P} {h : Place}
    {v : Val P} (hu : ∀ r, v = .err r → s.Uses F r) (hs : Sane env s v) (hf : Fits env X s F h v) : Fits env X s' F h v := by
  cases v with
  | err r =>
    intro t' ht'
    cases hr : s.objs r with
    | none => exact absurd hr hs
    | some t => exact hh F r (hu r rfl) t t' hr ht' h (hf t hr)
  | text t => exact hf
  | fn c => exact hf
  | nil => trivial
  | other => trivial

/-- If only the heap changes (and fits), the invariant is kept. -/
theorem Inv.heap {s s' : State P} (hi : Inv env X s) (hc : s'.cells = s.cells) (ha : s'.acts = s.acts) (hf : s'.fns = s.fns)
    (ho : ∀ r, s.objs r ≠ none → s'.objs r ≠ none) (hh : Heals env X s s') : Inv env X s' := by
  have hk := Keeps.refl s s' hc
  refine ⟨fun n cell h => ?_, fun a A h => ?_, fun c h => (hi.fns c (hf ▸ h)).keeps hk⟩
  · rw [hc] at h
    have := hi.cells n cell h
    exact ⟨this.1.keeps hk ho, fun F hF => (this.2 F hF).heals hh (fun r hr => .inl ⟨n, cell, h, hF, hr⟩) this.1⟩
  · rw [ha] at h
    obtain ⟨F, rest, hA⟩ := hi.acts a A h
    refine ⟨F, rest, hA.scope, hA.body, hA.nested, hA.visible.keeps hk, fun e v he => ?_, fun a' e A' h1 h2 => hA.caller a' e A' h1 (ha ▸ h2)⟩
    have := hA.temps e v he
    exact ⟨this.1.keeps hk ho, fun G hG => (this.2 G hG).heals hh (fun r hr => .inr ⟨a, A, e, h, hG, hr ▸ he⟩) this.1⟩

theorem put_self {α : Type u} (m : Nat → Option α) (k : Nat) (v : α) : put m k v k = some v := by simp [put]

theorem put_ne {α : Type u} (m : Nat → Option α) {k i : Nat} (v : α) (h : i ≠ k) : put m k v i = m i := by simp [put, h]

theorem put_some {α : Type u} {m : Nat → Option α} {k i : Nat} {v w : α} (h : put m k v i = some w) : (i = k ∧ w = v) ∨ (i ≠ k ∧ m i = some w) := by
  by_cases hi : i = k
  · subst hi; rw [put_self] at h; cases h; exact .inl ⟨rfl, rfl⟩
  · rw [put_ne _ _ hi] at h; exact .inr ⟨hi, h⟩

theorem put_none {α : Type u} {m : Nat → Option α} {k i : Nat} {v : α} (h : m i ≠ none) : put m k v i ≠ none := by
  by_cases hi : i = k
  · subst hi; rw [put_self]; exact nofun
  · rwa [put_ne _ _ hi]

/-- A new error. -/
theorem Inv.object {s : State P} (hi : Inv env X s) {r : Nat} (t : Thing P) (hr : s.objs r = none) :
    Inv env X { s with objs := put s.objs r t } := by
  refine hi.heap rfl rfl rfl (fun _ h => put_none h) fun F r' _ t₁ t₂ h1 h2 h hf => ?_
  rcases put_some h2 with ⟨rfl, -⟩ | ⟨-, h2⟩
  · rw [hr] at h1; cases h1
  · rw [h1] at h2; cases h2; exact hf

/-- A changed error. -/
theorem Inv.change {s : State P} (hi : Inv env X s) {r : Nat} {t t' : Thing P} (hr : s.objs r = some t)
    (h : ∀ F, s.Uses F r → ∀ h, Fine env X F h t → Fine env X F h t') : Inv env X { s with objs := put s.objs r t' } := by
  refine hi.heap rfl rfl rfl (fun _ h => put_none h) fun F r' hu t₁ t₂ h1 h2 h' hf => ?_
  rcases put_some h2 with ⟨rfl, rfl⟩ | ⟨-, h2⟩
  · rw [hr] at h1; cases h1; exact h F hu h' hf
  · rw [h1] at h2; cases h2; exact hf

/-- A variable gets a value. -/
theorem Inv.cell {s : State P} (hi : Inv env X s) {n : Nat} {cell : Cell P} (hn : s.cells n = some cell) {v : Val P}
    (hv : Ok env X s cell.scope (.var cell.var) v) : Inv env X { s with cells := put s.cells n { cell with val := v } } := by
  have hk : Keeps s { s with cells := put s.cells n { cell with val := v } } := fun m c hm => by
    by_cases h : m = n
    · subst h; rw [hn] at hm; cases hm; exact ⟨_, put_self .., rfl, rfl⟩
    · exact ⟨c, by rw [← hm]; exact put_ne _ _ h, rfl, rfl⟩
  refine ⟨fun m c h => ?_, fun a A h => ?_, fun c h => (hi.fns c h).keeps hk⟩
  · rcases put_some h with ⟨-, rfl⟩ | ⟨-, h⟩
    · exact hv.same hk rfl
    · exact (hi.cells m c h).same hk rfl
  · obtain ⟨F, rest, hA⟩ := hi.acts a A h
    exact ⟨F, rest, hA.scope, hA.body, hA.nested, hA.visible.keeps hk, fun e v he => (hA.temps e v he).same hk rfl, hA.caller⟩

/-- An execution changes; it keeps its frames. -/
theorem Inv.act {s : State P} (hi : Inv env X s) {a : Nat} {A A' : Act P} (ha : s.acts a = some A) (hs : A'.scope = A.scope) {F : Frame P}
    {rest : List (Frame P)} (hA : ActOk env X s A' F rest) : Inv env X { s with acts := put s.acts a A' } := by
  have hk := Keeps.refl s { s with acts := put s.acts a A' } rfl
  have call : ∀ {B : Act P} {G : Frame P} {r : List (Frame P)}, ActOk env X s B G r → ∀ a' e B', B.caller = some (a', e) →
      put s.acts a A' a' = some B' → Promise env X G B'.scope e := by
    intro B G r hB a' e B' h1 h2
    rcases put_some h2 with ⟨rfl, rfl⟩ | ⟨-, h2⟩
    · rw [hs]; exact hB.caller _ e A h1 ha
    · exact hB.caller _ e B' h1 h2
  refine ⟨fun n c h => (hi.cells n c h).same hk rfl, fun b B h => ?_, fun c h => (hi.fns c h).keeps hk⟩
  rcases put_some h with ⟨rfl, rfl⟩ | ⟨-, h⟩
  · exact ⟨F, rest, hA.scope, hA.body, hA.nested, hA.visible.keeps hk, fun e v he => (hA.temps e v he).same hk rfl, call hA⟩
  · obtain ⟨G, r, hB⟩ := hi.acts b B h
    exact ⟨G, r, hB.scope, hB.body, hB.nested, hB.visible.keeps hk, fun e v he => (hB.temps e v he).same hk rfl, call hB⟩

/-- A function value is recorded. -/
theorem Inv.fn {s : State P} (hi : Inv env X s) {c : Closure P} (hc : ClosureOk env s c) : Inv env X { s with fns := c :: s.fns } := by
  have hk := Keeps.refl s { s with fns := c :: s.fns } rfl
  refine ⟨fun n c h => (hi.cells n c h).same hk rfl, fun b B h => ?_,
    fun c' h => (List.mem_cons.1 h).elim (fun h => h ▸ hc.keeps hk) fun h => (hi.fns c' h).keeps hk⟩
  obtain ⟨G, r, hB⟩ := hi.acts b B h
  exact ⟨G, r, hB.scope, hB.body, hB.nested, hB.visible.keeps hk, fun e v he => (hB.temps e v he).same hk rfl, hB.caller⟩

/-- An expression is evaluated. -/
theorem Inv.temp {s : State P} (hi : Inv env X s) {a : Nat} {A : Act P} (ha : s.acts a = some A) {e : Node} {v : Val P}
    (hv : Ok env X s A.scope (.expr e) v) : Inv env X (s.temp a A e v) := by
  obtain ⟨F, rest, hA⟩ := hi.acts a A ha
  have h1 := hi.act (A' := { A with temps := (e, v) :: A.temps }) ha rfl (F := F) (rest := rest)
    ⟨hA.scope, hA.body, hA.nested, hA.visible, fun e' v' h => (List.mem_cons.1 h).elim (fun h => by cases h; exact hv) (hA.temps e' v'), hA.caller⟩
  cases v with
  | fn c =>
    refine h1.fn (c := c) ?_
    have hc : ClosureOk env s c := hv.1
    exact hc.keeps (by exact Keeps.refl _ _ rfl)
  | _ => exact h1

end Serum.Machine
