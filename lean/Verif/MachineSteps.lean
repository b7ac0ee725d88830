import Verif.MachineInv
import Verif.Props.ErrorTypes

/-! # The steps of the machine keep the invariant -/

universe u

namespace Serum.Machine
open Flow Analyse Serum.Runtime Props.Calls Props.Extract

variable {P : Type u} {env : P → Env} {X : P → Extra} {exec : Object → P → FnId → Prop}

/-! ## Nesting -/

theorem within_trans {go : Node → Bool} {a b c : Node} (h1 : Within go a b) (h2 : Within go b c) : Within go a c := by
  induction h2 with
  | self => exact h1
  | child h hc _ ih => exact .child h hc ih

theorem occurs_literal {id : NodeId} {g : FnId} {type : FuncType} {b body : List Node} (h : Occurs (.funcLit id g type b) body) {n : Node}
    (hn : Occurs n b) : Occurs n body := by
  obtain ⟨m, hm, hw⟩ := h
  obtain ⟨m', hm', hw'⟩ := hn
  exact ⟨m, hm, within_trans (.child rfl hm' hw') hw⟩

theorem source_mono {env : Env} {body body' : List Node} (h : ∀ n, Occurs n body → Occurs n body') {x : ObjId} {e : Node}
    (hs : Source env body x e) : Source env body' x e :=
  hs.imp id fun ⟨id, lhs, rhs, ho, h'⟩ => ⟨id, lhs, rhs, h _ ho, h'⟩

theorem destructured_mono {env : Env} {body body' : List Node} (h : ∀ n, Occurs n body → Occurs n body') {x : ObjId} {d : Destruct}
    (hs : Destructured env body x d) : Destructured env body' x d :=
  hs.imp id fun ⟨id, lhs, rhs, ho, h'⟩ => ⟨id, lhs, rhs, h _ ho, h'⟩

section
variable {s : State P} {A : Act P} {F : Frame P} {rest : List (Frame P)}

theorem ActOk.pkg (h : ActOk env X s A F rest) {G : Frame P} (hG : G ∈ A.scope) : G.pkg = F.pkg := by
  rw [h.scope] at hG
  rcases List.mem_cons.1 hG with rfl | hG
  · rfl
  · exact h.nested.pkg G hG

theorem ActOk.occurs (h : ActOk env X s A F rest) {G : Frame P} (hG : G ∈ A.scope) {n : Node} (hn : Occurs n F.body) : Occurs n G.body := by
  rw [h.scope] at hG
  rcases List.mem_cons.1 hG with rfl | hG
  · exact hn
  · exact h.nested.body _ h.body G hG n hn

/-- The zero value of a variable is that of the enclosing functions too, or the variable is wild there. -/
theorem ActOk.zero (h : ActOk env X s A F rest) {G : Frame P} (hG : G ∈ A.scope) {x : ObjId} {et : ErrorType}
    (hz : ZeroValue (env F.pkg) F.fn F.body x et) : ZeroValue (env G.pkg) G.fn G.body x et ∨ Wild (env G.pkg) (X G.pkg) G.body x := by
  have hp := h.pkg hG
  have ho := fun n => h.occurs hG (n := n)
  rw [h.scope] at hG
  rcases List.mem_cons.1 hG with rfl | hG
  · exact .inl hz
  · rw [hp]
    obtain ⟨h1, i, o, h2, h3, h4, h5⟩ := hz
    rcases h2 with h2 | ⟨fields, h6, h7⟩
    · rcases h1 with h1 | ⟨fields, n, h6, h7, h8⟩ | ⟨d, id, y, t, h6, h7⟩
      · exact .inl ⟨.inl h1, i, o, .inl (ho _ h2), h3, h4, h5⟩
      · exact .inr (.inr (.inr (.inl (h.nested.results fields n x h6 h7 h8 G hG))))
      · exact .inl ⟨.inr (.inr ⟨d, id, y, t, destructured_mono (fun n hn => ho n hn) h6, h7⟩), i, o, .inl (ho _ h2), h3, h4, h5⟩
    · exact .inr (.inr (.inr (.inl (h.nested.results fields i x h6 h7 h3 G hG))))

end

/-! ## Values -/

theorem closureOk_top (s : State P) (p : P) (g : FnId) : ClosureOk env s (.top p g) :=
  ⟨⟨fun _ h => (by cases h), fun _ _ _ h => (by cases h), fun _ _ _ _ _ _ _ h => (by cases h)⟩, fun _ _ h => (by cases h), fun _ _ h => (by cases h)⟩

theorem Inv.sane {s : State P} (hi : Inv env X s) {v : Val P} (h : s.Has v) : Sane env s v := by
  cases v with
  | err r => exact h
  | fn c =>
    rcases h with ⟨p, g, rfl⟩ | h
    · exact closureOk_top s p g
    · exact hi.fns c h
  | _ => trivial

theorem literal_ok {s : State P} {A : Act P} {F : Frame P} {rest : List (Frame P)} (hA : ActOk env X s A F rest) {e : Node} {c : Closure P}
    (h : LiteralValue env A F e c) : ClosureOk env s c := by
  obtain ⟨id, g, type, b, hu, ho, hb, ht, hp, hf, hs, hv⟩ := h
  obtain ⟨pkg, fn, vars, outer⟩ := c
  dsimp only at hp hf hs hv
  subst hp hf hs
  have hvars : ∀ x n, vars x = some n → A.vars x = some n ∧ ¬ Declared (env F.pkg) fn x ∧ ¬ CodeParam (env F.pkg) fn x := by
    intro x n hx
    have h1 : ¬ Declared (env F.pkg) fn x := fun h => by rw [(hv x).1 (.inl h)] at hx; cases hx
    have h2 : ¬ CodeParam (env F.pkg) fn x := fun h => by rw [(hv x).1 (.inr h)] at hx; cases hx
    exact ⟨(hv x).2 h1 h2 ▸ hx, h1, h2⟩
  refine ⟨⟨fun G hG => hA.pkg hG, fun body hbody G hG n hn => ?_, fun fields n x hres hn hx G hG => ?_⟩,
    fun x n hx => hA.visible x n (hvars x n hx).1, fun x n hx => (hvars x n hx).2⟩
  · have hbody : ((env F.pkg).func fn).body = some body := hbody
    rw [hb] at hbody
    cases hbody
    exact hA.occurs hG (occurs_literal ho hn)
  · have hres : ((env F.pkg).func fn).type.results = some fields := hres
    rw [ht] at hres
    exact ⟨id, fn, type, b, fields, hA.occurs hG ho, hres, n, hn, hx⟩

theorem literal_defined {A : Act P} {F : Frame P} {e : Node} {c : Closure P} (h : LiteralValue env A F e c) :
    c.pkg = F.pkg ∧ Defined (env F.pkg) e c.fn ∧ (¬ ∃ j y, VarUse (env F.pkg) e j y) ∧ Denotes (env F.pkg) e = none := by
  obtain ⟨id, g, type, b, hu, -, -, -, hp, rfl, -, -⟩ := h
  refine ⟨hp, .inr (.inr (.inr ⟨id, type, b, hu⟩)), ?_, ?_⟩
  · rintro ⟨j, y, h, -⟩; rw [hu] at h; cases h
  · unfold Denotes; rw [hu]

/-- An expression that refers to a variable. -/
theorem fits_read {s : State P} {F : Frame P} {p : P} (hp : F.pkg = p) {e : Node} {i : Ident} {x : ObjId} (hu : VarUse (env p) e i x)
    (hc : Varying env p e) {v : Val P} (hv : Fits env X s F (.var x) v) : Fits env X s F (.expr e) v := by
  subst hp
  refine hv.mono (fun t _ h => .read hc hu.1 hu.2.1 h) (fun o h => .read hu.1 hu.2.1 h) (fun c _ o h => ⟨fun j y hj => ?_, fun hn => absurd ⟨i, x, hu⟩ hn⟩)
  have := hj.1
  rw [hu.1] at this
  cases this
  have := hj.2.1
  rw [hu.2.1] at this
  cases this
  exact h

theorem says_initial {s : State P} {A : Act P} {F : Frame P} {rest : List (Frame P)} (hA : ActOk env X s A F rest) {G : Frame P}
    (hG : G ∈ A.scope) {et : ErrorType} {elts : List Node} {t : GoString} (h : Initial A et elts t) :
    FieldInit (env G.pkg) (X G.pkg) G.fn G.body G.arg et elts t := by
  have say : ∀ v, (v, Val.text t) ∈ A.temps → Text (env G.pkg) (X G.pkg) G.fn G.body G.arg (.expr v) t := fun v hv => (hA.temps v _ hv).2 G hG
  intro field hf
  rcases h field hf with ⟨e, v, h1, h2, h3⟩ | ⟨h1, v, h2, h3⟩ | h
  · exact .inl ⟨e, v, h1, h2, say v h3⟩
  · exact .inr (.inl ⟨h1, v, h2, say v h3⟩)
  · exact .inr (.inr h)

theorem fine_new {F : Frame P} {h : Place} {t : Thing P} (hv : t.var = none) (hg : Gives env X F h t.obj) : Fine env X F h t :=
  ⟨hg, fun x S hS => by rw [hv] at hS; cases hS⟩

theorem fits_holds {s : State P} {F : Frame P} {h : Place} {r : Nat} {o : Obj} (hr : s.Holds r o) (hg : Gives env X F h o) :
    Fits env X s F h (.err r) := by
  intro t ht
  obtain ⟨t', h1, rfl, h3⟩ := hr
  rw [ht] at h1; cases h1
  exact fine_new h3 hg

theorem holds_sane {s : State P} {r : Nat} {o : Obj} (hr : s.Holds r o) : Sane env s (.err r) := by
  obtain ⟨t, h, -⟩ := hr
  simp [Sane, h]

/-- Errors about which only the type is known. -/
theorem fits_typed {s : State P} {F : Frame P} {h : Place} {r : Nat} {t : Thing P} (hr : s.objs r = some t)
    (hg : ∀ u, Gives env X F h ⟨t.obj.et, u⟩) : Fits env X s F h (.err r) := by
  intro t' ht'
  rw [hr] at ht'; cases ht'
  exact ⟨hg t.obj.field, fun x S _ o ho _ _ => by obtain ⟨et, u⟩ := o; dsimp only at ho; subst ho; exact hg u⟩

theorem fits_every {s : State P} {F : Frame P} {h : Place} {r : Nat} (hg : ∀ o, Gives env X F h o) : Fits env X s F h (.err r) :=
  fun _ _ => ⟨hg _, fun _ _ _ _ _ _ _ => hg _⟩

theorem unmodelled_fits {s : State P} {F : Frame P} {p : P} (hp : F.pkg = p) {e : Node} {v : Val P} (h : Unmodelled env X s p e v) :
    Fits env X s F (.expr e) v := by
  subst hp
  cases h with
  | text h1 h2 => exact Text.unknown h1 h2
  | unresolved h1 h2 h3 => exact fits_every fun o => .unresolved h1 h2 h3
  | addressUnresolved h1 h2 h3 h4 => exact fits_every fun o => .addressUnresolved h1 h2 h3 h4
  | pointer h1 h2 h3 h4 h5 => exact fits_typed h4 fun u => .pointer h1 h2 h3 h5
  | basic h1 h2 h3 => exact fits_typed h2 fun u => .basic h1 h3
  | untagged h1 h2 h3 h4 => exact fits_every fun o => .untagged h1 h2 h3 h4
  | unknown h => exact fits_every fun o => .unknown h
  | conversion h1 h2 h3 h4 => exact fits_typed h3 fun u => .called h1 (.conversion h2 h4)
  | untaggedConversion h1 h2 h3 => exact fits_every fun o => .called h1 (.untaggedConversion h2 h3)
  | unknownCallee h1 h2 h3 h4 h5 => exact fits_every fun o => .called h1 (.unknownCallee h2 h3 h4 h5)
  | fn h1 h2 h3 => exact fun t o _ => ⟨fun j y hj => absurd ⟨j, y, hj⟩ h1, fun _ => .applyUnknown h2 h3⟩

/-- What calls of functions known by their declaration return. -/
def Closed (env : P → Env) (X : P → Extra) (exec : Object → P → FnId → Prop) : Prop :=
  ∀ p q k g t o, exec q k g → Yields (env k) (X k) (.ret g t) o → (X p).declared q t o

theorem value_ok (hcl : Closed env X exec) {s : State P} (hi : Inv env X s) {a : Nat} {A : Act P} (_ha : s.acts a = some A) {F : Frame P} {rest : List (Frame P)}
    (hA : ActOk env X s A F rest) {e : Node} {v : Val P} (h : Value env X exec s A F e v) : Ok env X s A.scope (.expr e) v := by
  cases h with
  | nil => exact ⟨trivial, fun _ _ => trivial⟩
  | other => exact ⟨trivial, fun _ _ => trivial⟩
  | constant h => exact ⟨trivial, fun G hG => Text.constant (by rw [hA.pkg hG]; exact h)⟩
  | read hu hc hx hn =>
    obtain ⟨cell', h1, h2, h3, h4⟩ := hA.visible _ _ hx
    rw [hn] at h1; cases h1
    subst h2
    have hcell := hi.cells _ _ hn
    refine ⟨hcell.1, fun G hG => fits_read (hA.pkg hG) hu hc ?_⟩
    rcases h4 G hG with h | h
    · exact hcell.2 G h
    · exact fits_free (.inl h) _
  | free hu hc hx hv => exact ⟨hi.sane hv, fun G hG => fits_read (hA.pkg hG) hu hc (fits_free (hx G hG) _)⟩
  | address he hu hx hn hr =>
    obtain ⟨cell', h1, h2, h3, h4⟩ := hA.visible _ _ hx
    rw [hn] at h1; cases h1
    subst h2
    have hcell := hi.cells _ _ hn
    rw [hr] at hcell
    refine ⟨hcell.1, fun G hG => ?_⟩
    have hv : Fits env X s G (.var _) (.err _) := (h4 G hG).elim (hcell.2 G) fun h => fits_free (.inl h) _
    exact hv.mono (fun t h => nomatch h) (fun o h => .address he hu.1 hu.2.1 h) (fun c h => nomatch h)
  | addressFree he hu hx hv =>
    refine ⟨hi.sane hv, fun G hG => ?_⟩
    exact (fits_free (hx G hG) _ : Fits env X s G (.var _) (.err _)).mono (fun t h => nomatch h) (fun o h => .address he hu.1 hu.2.1 h) (fun c h => nomatch h)
  | composite he ht hi' hr => exact ⟨holds_sane hr, fun G hG => fits_holds hr (.literal he (hA.pkg hG ▸ ht) (says_initial hA hG hi'))⟩
  | pointerComposite he hy ht hi' hr =>
    exact ⟨holds_sane hr, fun G hG => fits_holds hr (.pointerLiteral he hy (hA.pkg hG ▸ ht) (says_initial hA hG hi'))⟩
  | copy he ht hr => exact ⟨holds_sane hr, fun G hG => fits_holds hr ((hA.temps _ _ he).2 G hG _ ht).1⟩
  | literal h =>
    refine ⟨literal_ok hA h, fun G hG t o ho => ?_⟩
    obtain ⟨h1, h2, h3, h4⟩ := literal_defined h
    unfold Rets at ho
    rw [h1] at ho
    rw [← hA.pkg hG] at h2 h3 h4 ho
    exact ⟨fun j y hj => absurd ⟨j, y, hj⟩ h3, fun _ => .applyOwn (by rw [h4]; rintro ⟨_, _, h, -⟩; cases h) h2 ho⟩
  | @trusted q S k g h1 h2 h3 h4 =>
    refine ⟨closureOk_top s k g, fun G hG t o ho => ?_⟩
    rw [← hA.pkg hG] at h1 h2 h3
    exact ⟨fun j y hj => absurd ⟨j, y, hj⟩ h1, fun _ => .applyTrusted h2 h3 (hcl _ _ _ _ _ _ h4 ho)⟩
  | @own g h1 h2 h3 =>
    refine ⟨closureOk_top s F.pkg g, fun G hG t o ho => ?_⟩
    have ho : Yields (env F.pkg) (X F.pkg) (.ret g t) o := ho
    have h3 := h3.1
    rw [← hA.pkg hG] at h1 h2 h3 ho
    exact ⟨fun j y hj => absurd ⟨j, y, hj⟩ h1, fun _ => .applyOwn h2 h3 ho⟩
  | unmodelled h hv => exact ⟨hi.sane hv, fun G hG => unmodelled_fits (hA.pkg hG) h⟩

/-! ## Assignments -/

theorem written_ok {s : State P} (hi : Inv env X s) {A : Act P} {F : Frame P} {rest : List (Frame P)} (hA : ActOk env X s A F rest)
    {x : ObjId} {v : Val P} (h : Written env s A F x v) : Ok env X s A.scope (.var x) v := by
  cases h with
  | @assigned e v hs he =>
    refine ⟨(hA.temps _ _ he).1, fun G hG => ?_⟩
    have hs : Source (env G.pkg) G.body x e := hA.pkg hG ▸ source_mono (fun n hn => hA.occurs hG hn) hs
    refine ((hA.temps _ _ he).2 G hG).mono (fun t _ h => .assigned hs h) (fun o h => .assigned hs h) (fun c _ o h => ?_)
    by_cases hj : ∃ j y, VarUse (env G.pkg) e j y
    · obtain ⟨j, y, hj⟩ := hj
      exact .fnCopied hs hj (h.1 j y hj)
    · exact .fnAssigned hs hj (h.2 hj)
  | @asserted d id y t v hd hu hy =>
    refine ⟨(hA.temps _ _ hy).1, fun G hG => ?_⟩
    have hd : Destructured (env G.pkg) G.body x d := hA.pkg hG ▸ destructured_mono (fun n hn => hA.occurs hG hn) hd
    exact ((hA.temps _ _ hy).2 G hG).mono (fun t _ h => .destructured hd) (fun o h => .asserted hd hu h) (fun c _ o h => .fnDestructured hd)
  | @lastResult d id fn args n v hd hu ht hp hy =>
    refine ⟨(hA.temps _ _ hy).1, fun G hG => ?_⟩
    have hd : Destructured (env G.pkg) G.body x d := hA.pkg hG ▸ destructured_mono (fun n hn => hA.occurs hG hn) hd
    rw [← hA.pkg hG] at ht hp
    exact ((hA.temps _ _ hy).2 G hG).mono (fun t _ h => .destructured hd) (fun o h => .lastResult hd hu ht hp (gives_call hu h)) (fun c _ o h => .fnDestructured hd)
  | @destructured d v hd h1 h2 hv =>
    refine ⟨hi.sane hv, fun G hG => ?_⟩
    have hd : Destructured (env G.pkg) G.body x d := hA.pkg hG ▸ destructured_mono (fun n hn => hA.occurs hG hn) hd
    rw [← hA.pkg hG] at h2
    exact fits_any (fun t => .destructured hd) (fun o => .destructured hd h1 h2) (fun o => .fnDestructured hd) v
  | zero hz hr =>
    refine ⟨holds_sane hr, fun G hG => fits_holds hr ?_⟩
    rcases hA.zero hG hz with h | h
    · exact .zero h
    · exact .wild h
  | zeroText => exact ⟨trivial, fun G hG => Text.zero⟩
  | nil => exact ⟨trivial, fun _ _ => trivial⟩
  | other => exact ⟨trivial, fun _ _ => trivial⟩

theorem assigns_ok {s : State P} (hi : Inv env X s) {n : Nat} {cell : Cell P} (hn : s.cells n = some cell) {v : Val P}
    (h : Assigns env X s n cell v) : Ok env X s cell.scope (.var cell.var) v := by
  rcases h with ⟨a, A, F, rest, ha, hs, hx, hw⟩ | ⟨hf, hv⟩
  · obtain ⟨F', rest', hA⟩ := hi.acts a A ha
    have : F :: rest = F' :: rest' := hs ▸ hA.scope
    cases this
    obtain ⟨cell', h1, -, h3, -⟩ := hA.visible _ _ hx
    rw [hn] at h1; cases h1
    have := written_ok hi hA hw
    exact ⟨this.1, fun G hG => this.2 G (h3 G hG)⟩
  · exact ⟨hi.sane hv, fun G hG => fits_free (hf G hG) v⟩

/-! ## Calls -/

theorem call_places {F : Frame P} {p : P} (hp : F.pkg = p) {e : Node} {id : NodeId} {fn : Node} {args : List Node}
    (hu : e.unparen = .call id fn args) (hc : Varying env p e) : (∀ t, Says env X F (.expr e) t) ∧ ∀ o, Calls env X F (.expr e) o := by
  subst hp
  refine ⟨fun t => .unknown hc ?_, fun o => ⟨fun j y hj => ?_, fun _ => .applyUnknown ?_ ?_⟩⟩
  · rintro ⟨i, x, h, -⟩; rw [hu] at h; cases h
  · have := hj.1; rw [hu] at this; cases this
  · rintro ⟨q, S, h, -⟩
    unfold Denotes at h
    rw [hu] at h
    cases h
  · rintro ⟨g, ⟨i, o, h, -⟩ | ⟨i, h, -⟩ | ⟨_, _, _, _, _, h, -⟩ | ⟨_, _, _, h⟩⟩ <;> rw [hu] at h <;> cases h

theorem callee_gives (hcl : Closed env X exec) {s : State P} {A : Act P} {F : Frame P} {rest : List (Frame P)} (hA : ActOk env X s A F rest)
    {e : Node} {id : NodeId} {fn : Node} {args : List Node} (hu : e.unparen = .call id fn args) {t : GoString} {c : Closure P}
    (h : Callee env X exec A F id fn args t c) {G : Frame P} (hG : G ∈ A.scope) {o : Obj} (ho : Rets env X c t o) : Gives env X G (.expr e) o := by
  have say : ∀ v, (v, Val.text t) ∈ A.temps → Text (env G.pkg) (X G.pkg) G.fn G.body G.arg (.expr v) t := fun v hv => (hA.temps v _ hv).2 G hG
  have hp := hA.pkg hG
  refine .called hu ?_
  cases h with
  | trusted h1 h2 h3 h4 =>
    rw [← hp] at h1 h2 h3
    exact .trusted h1 h2 (fun p hp e he => say e (h3 p hp e he)) (hcl _ _ _ _ _ _ h4 ho)
  | own h1 h2 h3 h4 =>
    have ho : Yields (env F.pkg) (X F.pkg) (.ret _ t) o := ho
    have h3 := h3.1
    rw [← hp] at h1 h2 h3 h4 ho
    exact .own h1 h2 h3 (fun p hp e he => say e (h4 p hp e he)) ho
  | literal h1 h2 h3 h4 =>
    obtain ⟨h5, h6, -, -⟩ := literal_defined h3
    unfold Rets at ho
    rw [h5] at ho
    rw [← hp] at h1 h2 h4 h6 ho
    exact .own h1 h2 h6 (fun p hp e he => say e (h4 p hp e he)) ho
  | throughVar h1 h2 h3 h4 h5 =>
    have := ((hA.temps _ _ h5).2 G hG t o ho).1 _ _ (hp ▸ h4)
    rw [← hp] at h1 h2 h3
    exact .throughVar h1 h2 h3 this

theorem callee_ok {s : State P} {A : Act P} {F : Frame P} {rest : List (Frame P)} (hA : ActOk env X s A F rest)
    {id : NodeId} {fn : Node} {args : List Node} {t : GoString} {c : Closure P} (h : Callee env X exec A F id fn args t c) : ClosureOk env s c := by
  cases h with
  | trusted _ _ _ _ => exact closureOk_top _ _ _
  | own _ _ _ _ => exact closureOk_top _ _ _
  | literal _ _ h _ => exact literal_ok hA h
  | throughVar _ _ _ _ h => exact (hA.temps _ _ h).1

/-- A new execution. -/
theorem Inv.newAct {s : State P} (hi : Inv env X s) {b : Nat} {B : Act P} (hb : Unused s b) (hself : ∀ e, B.caller ≠ some (b, e)) {F : Frame P}
    {rest : List (Frame P)} (hB : ActOk env X s B F rest) : Inv env X { s with acts := put s.acts b B } := by
  have hk := Keeps.refl s { s with acts := put s.acts b B } rfl
  refine ⟨fun n c h => (hi.cells n c h).same hk rfl, fun a A h => ?_, fun c h => (hi.fns c h).keeps hk⟩
  rcases put_some h with ⟨rfl, rfl⟩ | ⟨-, ha⟩
  · refine ⟨F, rest, hB.scope, hB.body, hB.nested, hB.visible.keeps hk, fun e v he => (hB.temps e v he).same hk rfl, fun a' e A' h1 h2 => ?_⟩
    rcases put_some h2 with ⟨rfl, rfl⟩ | ⟨-, h2⟩
    · exact absurd h1 (hself e)
    · exact hB.caller a' e A' h1 h2
  · obtain ⟨G, r, hA⟩ := hi.acts a A ha
    refine ⟨G, r, hA.scope, hA.body, hA.nested, hA.visible.keeps hk, fun e v he => (hA.temps e v he).same hk rfl, fun a' e A' h1 h2 => ?_⟩
    rcases put_some h2 with ⟨rfl, -⟩ | ⟨-, h2⟩
    · exact absurd h1 (hb.2 a A e ha)
    · exact hA.caller a' e A' h1 h2

/-- A new variable. -/
theorem Inv.newCell {s : State P} (hi : Inv env X s) {n : Nat} {cell : Cell P} (hn : s.cells n = none)
    (hv : Ok env X s cell.scope (.var cell.var) cell.val) :
    Inv env X { s with cells := put s.cells n cell } ∧ Keeps s { s with cells := put s.cells n cell } := by
  have hk : Keeps s { s with cells := put s.cells n cell } := fun m c hm => by
    have h : m ≠ n := fun h => by subst h; rw [hn] at hm; cases hm
    exact ⟨c, by rw [← hm]; exact put_ne _ _ h, rfl, rfl⟩
  refine ⟨⟨fun m c h => ?_, fun a A h => ?_, fun c h => (hi.fns c h).keeps hk⟩, hk⟩
  · rcases put_some h with ⟨-, rfl⟩ | ⟨-, h⟩
    · exact hv.same hk rfl
    · exact (hi.cells m c h).same hk rfl
  · obtain ⟨F, rest, hA⟩ := hi.acts a A h
    exact ⟨F, rest, hA.scope, hA.body, hA.nested, hA.visible.keeps hk, fun e v he => (hA.temps e v he).same hk rfl, hA.caller⟩

/-- A function gets executed. -/
theorem Inv.starts {s s' : State P} (hi : Inv env X s) {c : Closure P} (hc : ClosureOk env s c) {t : GoString} {caller : Option (Nat × Node)}
    (hcall : ∀ a e, caller = some (a, e) → ∃ A, s.acts a = some A ∧ ∀ body, Promise env X ⟨c.pkg, c.fn, body, t⟩ A.scope e)
    (h : Starts env s c t caller s') : Inv env X s' := by
  cases h with
  | @plain body b hb hx hu =>
    refine hi.newAct hu (fun e he => ?_) (F := ⟨c.pkg, c.fn, body, t⟩) (rest := c.outer) ⟨rfl, hb, hc.nested, fun x n hn => ?_, nofun, fun a e A' h1 h2 => ?_⟩
    · obtain ⟨A, hA, -⟩ := hcall b e he
      rw [hu.1] at hA; cases hA
    · obtain ⟨cell, h1, h2, h3, h4⟩ := hc.visible x n hn
      refine ⟨cell, h1, h2, fun G hG => List.mem_cons_of_mem _ (h3 G hG), fun G hG => ?_⟩
      rcases List.mem_cons.1 hG with rfl | hG
      · exact .inr (hc.outside x n hn)
      · exact h4 G hG
    · obtain ⟨A, hA, hp⟩ := hcall a e h1
      rw [hA] at h2; cases h2
      exact hp body
  | @param body b x n hb hx ho hu hn =>
    obtain ⟨h1, hk⟩ := hi.newCell (cell := ⟨x, [⟨c.pkg, c.fn, body, t⟩], .text t⟩) hn
      ⟨trivial, fun G hG => by rw [List.mem_singleton.1 hG]; exact Text.argument hx⟩
    refine h1.newAct hu (fun e he => ?_) (F := ⟨c.pkg, c.fn, body, t⟩) (rest := []) ⟨rfl, hb, ho ▸ hc.nested, fun y m hm => ?_, nofun, fun a e A' h1 h2 => ?_⟩
    · obtain ⟨A, hA, -⟩ := hcall b e he
      rw [hu.1] at hA; cases hA
    · dsimp only at hm
      split at hm
      · cases hm
        rename_i h; subst h
        exact ⟨_, put_self .., rfl, fun G hG => hG, fun G hG => .inl hG⟩
      · obtain ⟨cell, h1, h2, h3, h4⟩ := hc.visible y m hm
        obtain ⟨cell', h5, h6, h7⟩ := hk m cell h1
        refine ⟨cell', h5, h6.trans h2, fun G hG => ?_, fun G hG => ?_⟩
        · have := h3 G (h7 ▸ hG)
          rw [ho] at this; cases this
        · rw [List.mem_singleton.1 hG]
          exact .inr (hc.outside y m hm)
    · obtain ⟨A, hA, hp⟩ := hcall a e h1
      have h2 : s.acts a = some A' := h2
      rw [hA] at h2; cases h2
      exact hp body

/-- An execution ends. -/
theorem Inv.finish {s : State P} (hi : Inv env X s) {b : Nat} {B : Act P} {v : Val P} (hv : Sane env s v)
    (h : ∀ a e A, B.caller = some (a, e) → s.acts a = some A → ∀ G ∈ A.scope, Fits env X s G (.expr e) v) : Inv env X (s.finish b B v) := by
  have hk : Keeps s { s with acts := fun i => if i = b then none else s.acts i } := Keeps.refl _ _ rfl
  have hsub : ∀ a A, (if a = b then none else s.acts a) = some A → s.acts a = some A := fun a A h => by
    split at h
    · cases h
    · exact h
  have h1 : Inv env X { s with acts := fun i => if i = b then none else s.acts i } := by
    refine ⟨fun n c h => (hi.cells n c h).same hk rfl, fun a A h => ?_, fun c h => (hi.fns c h).keeps hk⟩
    obtain ⟨F, rest, hA⟩ := hi.acts a A (hsub a A h)
    exact ⟨F, rest, hA.scope, hA.body, hA.nested, hA.visible.keeps hk, fun e v he => (hA.temps e v he).same hk rfl,
      fun a' e A' h1 h2 => hA.caller a' e A' h1 (hsub _ _ h2)⟩
  unfold State.finish
  dsimp only
  split
  · exact h1
  · rename_i a e hc
    split
    · exact h1
    · rename_i A hA
      refine h1.temp hA ⟨hv.keeps hk fun _ h => h, fun G hG => (h a e A hc (hsub a A hA) G hG).same rfl⟩

theorem Inv.mark {s : State P} (hi : Inv env X s) (p : P) (id : NodeId) (v : Val P) : Inv env X (s.mark p id v) := by
  unfold State.mark
  split
  · split
    · rename_i r t ht
      exact hi.change ht fun F _ h hf => ⟨hf.1, fun x S hS o ho hG hH => hf.2 x S hS o ho hG fun i hi => hH i (List.mem_cons_of_mem _ hi)⟩
    · exact hi
  · exact hi

theorem mark_acts (s : State P) (p : P) (id : NodeId) (v : Val P) : (s.mark p id v).acts = s.acts ∧ (s.mark p id v).cells = s.cells ∧
    ∀ r, s.objs r ≠ none → (s.mark p id v).objs r ≠ none := by
  unfold State.mark
  split
  · split
    · exact ⟨rfl, rfl, fun _ h => put_none h⟩
    · exact ⟨rfl, rfl, fun _ h => h⟩
  · exact ⟨rfl, rfl, fun _ h => h⟩

theorem Inv.forget {s s' : State P} (hi : Inv env X s) (h : Forgets s s') : Inv env X s' := by
  have vis : ∀ {scope : List (Frame P)} {vars : ObjId → Option Nat}, Visible env s scope vars →
      (∀ x n, vars x = some n → s'.cells n ≠ none) → Visible env s' scope vars := by
    intro scope vars hv hc x n hx
    obtain ⟨cell, h1, h2⟩ := hv x n hx
    cases hn : s'.cells n with
    | none => exact absurd hn (hc x n hx)
    | some cell' =>
      have := h.cells n cell' hn
      rw [h1] at this; cases this
      exact ⟨cell, rfl, h2⟩
  have sane : ∀ {v : Val P}, Sane env s v → (∀ c x n, v = .fn c → c.vars x = some n → s'.cells n ≠ none) → Sane env s' v := by
    intro v hv hc
    cases v with
    | err r => simpa [Sane, h.objs] using hv
    | fn c =>
      have hv : ClosureOk env s c := hv
      exact ⟨hv.nested, vis hv.visible fun x n hx => hc c x n rfl hx, hv.outside⟩
    | _ => trivial
  refine ⟨fun n cell hn => ?_, fun a A' ha => ?_, fun c hc => ?_⟩
  · have := hi.cells n cell (h.cells n cell hn)
    exact ⟨sane this.1 fun c x m hv hx => h.cellFns n cell c x m hn hv hx, fun F hF => (this.2 F hF).same h.objs⟩
  · obtain ⟨A, hA, h1, h2, h3, h4⟩ := h.acts a A' ha
    obtain ⟨F, rest, hok⟩ := hi.acts a A hA
    refine ⟨F, rest, h1 ▸ hok.scope, hok.body, hok.nested, ?_, fun e v he => ?_, fun a' e B hc hB => ?_⟩
    · exact vis (fun x n hx => h1 ▸ hok.visible x n (h4 x n hx)) fun x n hx => h.actVars a A' x n ha hx
    · have := hok.temps e v (h3 _ he)
      exact ⟨sane this.1 fun c x m hv hx => h.actFns a A' e c x m ha (hv ▸ he) hx, fun G hG => (this.2 G (h1 ▸ hG)).same h.objs⟩
    · obtain ⟨B', hB', h5, -⟩ := h.acts a' B hB
      rw [h5]
      exact hok.caller a' e B' (h2 ▸ hc) hB'
  · have := hi.fns c (h.fns c hc)
    exact ⟨this.nested, vis this.visible fun x n hx => h.fnVars c x n hc hx, this.outside⟩

/-! ## All steps -/

theorem Inv.start : Inv env X (State.start : State P) := ⟨nofun, nofun, nofun⟩

theorem Inv.step (hcl : Closed env X exec) {s s' : State P} {l : Option (Frame P × Obj)} (hi : Inv env X s) (h : Step env X exec s l s') :
    Inv env X s' := by
  have own : ∀ {a A F rest}, s.acts a = some A → A.scope = F :: rest → ActOk env X s A F rest := by
    intro a A F rest ha hs
    obtain ⟨F', rest', hA⟩ := hi.acts a A ha
    have : F :: rest = F' :: rest' := hs ▸ hA.scope
    cases this
    exact hA
  cases h with
  | object h => exact hi.object _ h
  | eval ha hs hv => exact hi.temp ha (value_ok hcl hi ha (own ha hs) hv)
  | @declare a A x n ha hn =>
    obtain ⟨h1, hk⟩ := hi.newCell (cell := ⟨x, A.scope, .nil⟩) hn ⟨trivial, fun _ _ => trivial⟩
    obtain ⟨F, rest, hA⟩ := h1.acts a A ha
    refine h1.act ha rfl (F := F) (rest := rest) ⟨hA.scope, hA.body, hA.nested, fun y m hm => ?_, hA.temps, hA.caller⟩
    dsimp only at hm
    split at hm
    · cases hm
      rename_i h; subst h
      exact ⟨_, put_self .., rfl, fun G hG => hG, fun G hG => .inl hG⟩
    · exact hA.visible y m hm
  | assign hn ha => exact hi.cell hn (assigns_ok hi hn ha)
  | @memory n cell r t r' hn hv ht hr' =>
    have h1 := hi.object ⟨t.obj, some (cell.var, cell.scope), []⟩ hr'
    have hc := hi.cells n cell hn
    refine h1.cell hn ⟨fun h => ?_, fun F hF t' ht' => ?_⟩
    · have h : put s.objs r' _ r' = none := h
      rw [put_self] at h
      cases h
    · have : put s.objs r' ⟨t.obj, some (cell.var, cell.scope), []⟩ r' = some t' := ht'
      rw [put_self] at this
      cases this
      have hg := hc.2 F hF
      rw [hv] at hg
      exact ⟨(hg t ht).1, fun x S hS o _ hG _ => by cases hS; exact hG F hF⟩
  | @overwrite n cell r t r' t' hn hv ht hvar ha ht' het hvia =>
    have hok := assigns_ok hi hn ha
    refine hi.change ht fun F _ h hf => ?_
    have hg : Gives env X F h t'.obj := hf.2 _ _ hvar t'.obj het (fun G hG => (hok.2 G hG t' ht').1) hvia
    exact ⟨hg, fun x S hS o ho hG hH => hf.2 x S hS o (ho.trans het) hG hH⟩
  | @store a A F rest id lhs rhs l sid y sel r t u k ha hs ho hk hl ht hcf hval huse =>
    have hA := own ha hs
    refine hi.change ht fun G hG h hf => ⟨gives_stored hf.1 ?_, fun x S hS o ho hG hH => hf.2 x S hS o ho hG hH⟩
    rcases huse G hG with hG | hG
    · have hp := hA.pkg hG
      have ho := hA.occurs hG ho
      rw [← hp] at hcf hval
      by_cases h1 : lhs.length = rhs.length ∧ (X G.pkg).op id = false
      · obtain ⟨e, h2, h3⟩ := hval h1.1 h1.2
        exact .assigned ho hk hl hcf h1.1 h1.2 h2 ((hA.temps e _ h3).2 G hG)
      · refine .unknown ho hk hl hcf ?_
        by_cases h2 : lhs.length = rhs.length
        · exact .inr (by simpa [h2] using h1)
        · exact .inl h2
    · exact .foreign hG
  | foreign ht huse =>
    exact hi.change ht fun G hG h hf => ⟨gives_stored hf.1 (.foreign (huse G hG)), fun x S hS o ho hG hH => hf.2 x S hS o ho hG hH⟩
  | @deref a A F rest id lhs rhs l r t u ha hs ho hl hd ht huse =>
    have hA := own ha hs
    refine hi.change ht fun G hG h hf => ?_
    have hG := huse G hG
    have := fun o => gives_derefs (env := env) h o ⟨id, lhs, rhs, l, hA.occurs hG ho, hl, hA.pkg hG ▸ hd⟩
    exact ⟨this _, fun _ _ _ o _ _ _ => this o⟩
  | @derefVar a A F rest id lhs rhs l n cell r ha hs ho hl hd hn hsub hr =>
    have hA := own ha hs
    refine hi.cell hn ⟨hr, fun G hG => fits_every fun o => ?_⟩
    exact gives_derefs _ o ⟨id, lhs, rhs, l, hA.occurs (hsub G hG) ho, hl, hA.pkg (hsub G hG) ▸ hd⟩
  | @call a A F rest e id fn args t c s' ha hs hu hc hcallee hst =>
    have hA := own ha hs
    refine hi.starts (callee_ok hA hcallee) (fun a' e' h => ?_) hst
    cases h
    refine ⟨A, ha, fun body G hG => ?_⟩
    obtain ⟨h1, h2⟩ := call_places (X := X) (hA.pkg hG) hu hc
    exact ⟨h1, h2, fun o ho => callee_gives hcl hA hu hcallee hG ho⟩
  | @external a A F rest e id fn args t c v ha hs hu hc hcallee hb hv =>
    have hA := own ha hs
    refine hi.temp ha ⟨hi.sane hv, fun G hG => ?_⟩
    obtain ⟨h1, h2⟩ := call_places (X := X) (hA.pkg hG) hu hc
    exact fits_any h1 (fun o => callee_gives hcl hA hu hcallee hG (.noBody hb)) h2 v
  | spawn hc hst => exact hi.starts (hi.sane hc) (fun _ _ h => by cases h) hst
  | @returned b B F rest id results e v o hb hs hret hres hv ho hh =>
    have hB := own hb hs
    have hok := hB.temps e v hv
    obtain ⟨h1, h2, h3⟩ := mark_acts s F.pkg id v
    refine (hi.mark F.pkg id v).finish (hok.1.keeps (Keeps.refl _ _ h2) h3) fun a ce A hc hA G hG => ?_
    obtain ⟨p1, p2, p3⟩ := hB.caller a ce A hc (h1 ▸ hA) G hG
    have hF : F ∈ B.scope := by rw [hs]; exact List.mem_cons_self ..
    cases v with
    | text t => exact p1 t
    | fn c => exact fun t o _ => p2 o
    | nil => trivial
    | other => trivial
    | err r =>
      cases hr : s.objs r with
      | none => exact absurd hr hok.1
      | some t =>
        have hf := hok.2 F hF t hr
        intro t' ht'
        simp only [State.mark, hr] at ht'
        rw [put_self] at ht'
        cases ht'
        have ret : ∀ o, Gives env X F (.expr e) o → Honours (env F.pkg) id o → Gives env X G (.expr ce) o :=
          fun o h1 h2 => p3 o (.returned hB.body hret hres h1 h2)
        refine ⟨ret _ hf.1 (hh t.obj (by rw [ho]; simp [hr])), fun x S hS o ho hG hH => ret o (hf.2 x S hS o ho hG fun i hi => hH i (List.mem_cons_of_mem _ hi)) ?_⟩
        exact hH (F.pkg, id) (List.mem_cons_self ..)
  | @deferred b B F rest v o hb hs hd hv ho =>
    have hB := own hb hs
    refine hi.finish (hi.sane hv) fun a ce A hc hA G hG => ?_
    obtain ⟨p1, p2, p3⟩ := hB.caller a ce A hc hA G hG
    exact fits_any p1 (fun o => p3 o (.deferred hd)) p2 v
  | forget h => exact hi.forget h

theorem Reachable.inv (hcl : Closed env X exec) {s : State P} (h : Reachable env X exec s) : Inv env X s := by
  induction h with
  | start => exact .start
  | step _ h ih => exact ih.step hcl h

/-- What the machine returns is described by `Yields`. -/
theorem returned_yields (hcl : Closed env X exec) {p : P} {f : FnId} {arg : GoString} {o : Obj} (h : Returned env X exec p f arg o) :
    Yields (env p) (X p) (.ret f arg) o := by
  obtain ⟨s, F, s', hr, hstep, rfl, rfl, rfl⟩ := h
  have hi := hr.inv hcl
  generalize hl : some (F, o) = l at hstep
  cases hstep with
  | @returned b B F' rest id results e v o' hb hs hret hres hv ho hh =>
    cases o' with
    | none => cases hl
    | some x =>
      cases hl
      obtain ⟨F'', rest', hB⟩ := hi.acts b B hb
      have : F :: rest = F'' :: rest' := hs ▸ hB.scope
      cases this
      cases v with
      | err r =>
        cases ht : s.objs r with
        | none => simp [ht] at ho
        | some t =>
          simp only [ht, Option.map_some, Option.some.injEq] at ho
          subst ho
          exact .returned hB.body hret hres ((hB.temps e _ hv).2 F (by rw [hs]; exact List.mem_cons_self ..) t ht).1 (hh _ rfl)
      | _ => cases ho
  | @deferred b B F' rest v o' hb hs hd hv ho =>
    cases o' with
    | none => cases hl
    | some x => cases hl; exact .deferred hd
  | _ => cases hl

end Serum.Machine
