import Verif.Props.LinkedExample

/-!
# What the hypotheses of C42 are needed for

Programs which the analyzer accepts without a report although a function returns an error code that it does not declare.
-/

namespace Serum.Props.Linked
open Serum RunSpec SessionSpec Serum.Linked Serum.Runtime Soundness Run

/-- All packages are in scope and accepted, and yet a function without error code parameter may return a code that it does not declare. -/
structure Escapes (U : Universe) (ms : List Member) (calls : Member → ConvSpec.CallKind) (X : Member → Extra)
    (imports : Member → Member → Prop) (visible : Member → Object → Prop) : Prop where
  session : Session false imports visible ms
  packages : Packages ms
  fit : ∀ m ∈ ms, Fit (X m) (calls m) m
  typeChecked : TypeChecked U ms calls imports visible
  compatible : ∀ m ∈ ms, Linked.Compatible m
  escapes : ∃ m ∈ ms, ∃ f c n o code, Compared m.pkg f c ∧ c.param = none ∧ Returns U ms calls X n m f [] o ∧ o.may code ∧ code ≠ [] ∧ code ∉ c.codes

theorem Escapes.unsupported {U : Universe} {ms : List Member} {calls : Member → ConvSpec.CallKind} {X : Member → Extra}
    {imports : Member → Member → Prop} {visible : Member → Object → Prop} (h : Escapes U ms calls X imports visible) : ¬ Linked.Supported U ms calls := by
  intro hs
  obtain ⟨m, hm, f, c, n, o, code, hc, hp, hr, ho, hne, hno⟩ := h.escapes
  rcases linked_sound_partial h.session h.packages h.fit h.typeChecked hs h.compatible n hm hc hr ho with h | h | ⟨h, -⟩
  · exact hne h
  · exact hno h
  · exact h hp

/-! ### Computable conditions -/

/-- The method declarations of a package. -/
def methodsOf (P : Package) : List (IfaceDecl × IfaceMethod) :=
  P.ifaces.flatMap fun d => d.elements.filterMap fun e => match e with | .method im => some (d, im) | .embedded _ => none

theorem mem_methodsOf {P : Package} {d : IfaceDecl} {im : IfaceMethod} (hd : d ∈ P.ifaces) (h : .method im ∈ d.elements) : (d, im) ∈ methodsOf P :=
  List.mem_flatMap.2 ⟨d, hd, List.mem_filterMap.2 ⟨_, h, rfl⟩⟩

theorem inj_of_nodup {α β : Type} {f : α → β} : ∀ {l : List α}, (l.map f).Nodup → ∀ {x y}, x ∈ l → y ∈ l → f x = f y → x = y
  | [], _, _, _, hx, _, _ => by cases hx
  | a :: l, h, x, y, hx, hy, he => by
    rw [List.map_cons, List.nodup_cons] at h
    rcases List.mem_cons.1 hx with h1 | h1 <;> rcases List.mem_cons.1 hy with h2 | h2
    · rw [h1, h2]
    · exact absurd (List.mem_map.2 ⟨y, h2, by rw [← he, h1]⟩) h.1
    · exact absurd (List.mem_map.2 ⟨x, h1, by rw [he, h2]⟩) h.1
    · exact inj_of_nodup h.2 h1 h2 he

def okObjects (P : Package) : Bool :=
  decide P.funcs.Nodup && decide (P.funcs.map P.env.funcObj).Nodup && decide ((methodsOf P).map fun p => P.methodObj p.2.ident.id).Nodup &&
  (P.funcs.all fun f => (methodsOf P).all fun p => P.env.funcObj f != P.methodObj p.2.ident.id) && decide (P.ifaces.map IfaceDecl.obj).Nodup

theorem okObjects_spec {P : Package} (h : okObjects P = true) (hf : P.env.facts = .empty) : Objects P := by
  unfold okObjects at h
  simp only [Bool.and_eq_true, decide_eq_true_eq, List.all_eq_true, bne_iff_ne] at h
  obtain ⟨⟨⟨⟨h1, h2⟩, h3⟩, h4⟩, h5⟩ := h
  refine ⟨h1, fun f hf g hg => inj_of_nodup h2 hf hg, ?_, fun f hf d hd im him => h4 f hf (d, im) (mem_methodsOf hd him),
    fun f _ => by rw [hf]; exact ⟨rfl, rfl⟩, fun _ _ _ _ => by rw [hf]; rfl, fun d hd d' hd' => inj_of_nodup h5 hd hd',
    fun _ _ => by rw [hf]; rfl, fun o ms h => by rw [hf] at h; cases h⟩
  intro d hd im him d' hd' im' him' he
  have := inj_of_nodup h3 (mem_methodsOf hd him) (mem_methodsOf hd' him') he
  cases this; exact ⟨rfl, rfl⟩

/-- Interfaces only embed earlier ones. -/
def okIfaces (decls : List IfaceDecl) : Bool :=
  decide (decls.map IfaceDecl.name).Nodup && (decls.all fun d => decide (Interfaces.methodNames d.elements).Nodup) &&
  decls.all fun d => d.elements.all fun e => match e with
    | .embedded (.name _ n) => decide ((decls.map IfaceDecl.name).idxOf n < (decls.map IfaceDecl.name).idxOf d.name) || !decls.any fun d' => d'.name == n
    | _ => true

theorem okIfaces_spec {decls : List IfaceDecl} (h : okIfaces decls = true) : Interfaces.Program decls := by
  unfold okIfaces at h
  simp only [Bool.and_eq_true, decide_eq_true_eq, List.all_eq_true] at h
  obtain ⟨⟨h1, h2⟩, h3⟩ := h
  refine ⟨h1, h2, fun n => (decls.map IfaceDecl.name).idxOf n, fun d hd d' hd' id he => ?_⟩
  have := h3 d hd _ he
  simp only [Bool.or_eq_true, decide_eq_true_eq, Bool.not_eq_true', List.any_eq_false] at this
  rcases this with h | h
  · exact h
  · exact absurd (beq_self_eq_true d'.name) (h d' hd')

def okTypes (P : Package) : Bool :=
  (P.specs.all fun s => match s.typ with | .named _ => true | _ => false) && decide (P.specs.map TypeSpec.typ).Nodup

theorem okTypes_spec {P : Package} (h : okTypes P = true) (hf : P.env.facts = .empty) : Types P := by
  unfold okTypes at h
  simp only [Bool.and_eq_true, decide_eq_true_eq, List.all_eq_true] at h
  refine ⟨fun s hs => ?_, h.2, fun _ _ _ _ => by rw [hf]; rfl⟩
  have := h.1 s hs
  split at this
  · rename_i o ho; exact ⟨o, ho⟩
  · cases this

/-! ### A scheme for programs of one package

```go
type Err struct{ TheCode string }
func (e *Err) Code() string { return e.TheCode }

type Impl struct{}
func (Impl) Get(code string) error { return &Err{…} }

// Errors:
//   - a-error -- always
func Run(g I) error { return g.Get("b-error") }
```

and declarations of interfaces and variables.  Functions: `Get` 0, `Run` 1, `Code` 2; types: `Err` 7, `Impl` 8, `error` 9. -/

structure Scheme where
  ifaces : List IfaceDecl
  methodObj : NodeId → Object
  /-- the methods of the interfaces -/
  methods : List (GoType × Object)
  /-- further type declarations -/
  specs : List Object
  /-- the type of `g`, and its method -/
  I : GoType
  q : Object
  doc : GoString
  /-- whether `Get` returns an error with the given code, or one with the code `b-error` -/
  given : Bool
  vars : List Node
  typeOf : NodeId → Option GoType

namespace Scheme

def U (s : Scheme) : Universe where
  methods := fun t m =>
    if m = b!"Get" ∧ t = .named 8 then some 70
    else if m = b!"Code" ∧ t = .pointer (.named 7) then some 72
    else if m = b!"Get" then (s.methods.find? fun x => x.1 = t).map Prod.snd else none
  underlying := fun o => if o = 9 then .interface 2 else if o = 30 then .interface 3 else if 20 ≤ o then .interface 1 else .struct o

def elt (s : Scheme) : Node := if s.given then .ident ⟨43, b!"code", some 1⟩ else .basicLit 44
def bodyGet (s : Scheme) : List Node := [.ret 40 [.unary 41 true (.compositeLit 42 [s.elt])]]
def bodyRun : List Node := [.ret 1 [.call 2 (.selector 3 (.ident ⟨4, b!"g", some 0⟩) ⟨5, b!"Get", none⟩) [.basicLit 6]]]

def env (s : Scheme) : Env :=
  { Tracking.plainEnv [⟨.var, 111, .other⟩, ⟨.var, 11, .other⟩, ⟨.var, 206, .other⟩] with
    funcs := [⟨100, some ⟨101, b!"Get", none⟩, ⟨[⟨[⟨102, b!"code", some 1⟩], 103⟩], some [⟨[], 104⟩], 15⟩, some s.bodyGet, 20, 100⟩,
      ⟨105, some ⟨106, b!"Run", none⟩, ⟨[⟨[⟨107, b!"g", some 0⟩], 108⟩], some [⟨[], 109⟩], 115⟩, some bodyRun, 120, 200⟩,
      ⟨110, some ⟨111, b!"Code", none⟩, ⟨[], some [⟨[], 112⟩], 210⟩, some Example.bodyCode, 220, 300⟩]
    funcObj := fun f => 70 + f
    callee := fun n => if n = 2 then some s.q else none
    selection := fun n => if n = 3 then some (s.I, s.q) else none
    typeOf := fun n => match s.typeOf n with
      | some t => t
      | none => if n = 3 then .signature 1 else if n = 2 ∨ n = 104 ∨ n = 109 ∨ n = 67 then .named 9 else if n = 4 ∨ n = 107 ∨ n = 108 then s.I
        else if n = 42 then .named 7 else if n = 41 ∨ n = 72 then .pointer (.named 7) else .string
    value := fun n => if n = 6 ∨ n = 44 then some (.str b!"b-error") else none
    implError := fun t => t == .pointer (.named 7) || t == .named 9
    implCode := fun t => t == .pointer (.named 7)
    methodSet := s.U.methods }

def pkg (s : Scheme) : Package where
  env := s.env
  decls :=
    { name := fun f => if f = 0 then b!"Get" else if f = 1 then b!"Run" else b!"Code"
      exported := fun _ => true
      recv := fun f => if f = 2 then some 72 else if f = 0 then some 68 else none
      doc := fun f => if f = 0 then some s.doc else if f = 1 then some Example.aError else none
      implCause := fun _ => false
      pos := fun f => 600 + f }
  types :=
    { recvType := fun f => if f = 0 then .named 8 else .pointer (.named 7)
      recvNames := fun f => if f = 2 then [⟨69, b!"e", some 2⟩] else []
      isInterface := fun o => decide (20 ≤ o)
      methodNames := fun o => if o = 7 then [b!"Code"] else if o = 8 then [b!"Get"] else [] }
  funcs := [0, 1, 2]
  specs := [⟨300, .named 7, some [[b!"TheCode"]]⟩, ⟨302, .named 8, some []⟩] ++ s.specs.map fun o => ⟨310, .named o, none⟩
  ifaces := s.ifaces
  methodObj := s.methodObj
  conv :=
    { underlying := s.U.underlying
      params := fun s => if s = 1 then [.string] else []
      variadic := fun _ => false
      tuple := fun _ => []
      fields := fun o => if o = 7 then [(b!"TheCode", .string)] else if o = 10 then [(b!"Loose", .interface 1)] else []
      implements := fun t i => (t != .named 30 && i == 1) || (t == .pointer (.named 7) && i == 2) || i == 3 }
  top := [.func 0, .func 1, .func 2] ++ s.vars.map .node

def out (s : Scheme) : Outcome :=
  match runVerify s.pkg schedule false with
  | .ok out => out
  | .error _ => ⟨s.pkg.env.facts, [], [], [], [], [], [], []⟩

def m (s : Scheme) : Member := ⟨s.pkg, schedule, s.out⟩

/-- The methods of the interfaces are those declared in them and embedded in them. -/
def okMethods (s : Scheme) : Bool :=
  s.ifaces.all fun d =>
    (d.elements.all fun e => match e with
      | .method im => (s.U.methods (.named d.obj) im.ident.name).isSome
      | .embedded (.name id _) => (s.U.methods (s.env.typeOf id) b!"Get").isNone || (s.U.methods (.named d.obj) b!"Get").isSome
      | .embedded (.qualified _) => false) &&
    match s.U.methods (.named d.obj) b!"Get" with
    | none => true
    | some q => d.elements.any fun e => match e with
      | .method im => im.ident.name == b!"Get" && q == s.methodObj im.ident.id
      | .embedded e => s.U.methods (s.env.typeOf e.id) b!"Get" == some q

/-- Everything but the execution. -/
def ok (s : Scheme) : Bool :=
  (match runVerify s.pkg schedule false with | .ok _ => true | .error _ => false) &&
  decide (s.out.bodies = [] ∧ s.out.mismatches = [] ∧ s.out.conversions = [] ∧ s.out.ifaces = [] ∧ s.out.tags = [] ∧ s.out.signatures = [] ∧
    s.out.claims = []) &&
  okObjects s.pkg && okIfaces s.ifaces && okTypes s.pkg && okPackage s.m Example.none_ [0, 1] && s.okMethods &&
  (s.ifaces.all fun d => decide (20 ≤ d.obj) && d.elements.all fun e => match e with
    | .embedded e => match s.env.typeOf e.id with | .named o => decide (20 ≤ o) | _ => false
    | _ => true) &&
  decide (s.out.facts.codes 71 = some [b!"a-error"] ∧ s.out.facts.ctor 71 = none ∧ (s.out.facts.codes s.q).isSome ∧
    (during s.pkg s.out.facts).codes s.q ≠ none ∧ s.out.facts.ctor s.q = none ∧ s.out.facts.errorType 7 = some errT ∧
    (s.given = true → importErrorConstructorFact (comparing s.m) 0 = some 0) ∧ s.typeOf 41 = none ∧
    s.U.methods s.I b!"Get" = some s.q)

def calls : Member → ConvSpec.CallKind := fun _ => onlyCalls
def X : Member → Extra := fun _ => Example.none_
def imports (_ _ : Member) : Prop := False
def visible (_ : Member) (_ : Object) : Prop := True


/-- Such a program, in which calling `g.Get` may execute the method of `Impl`. -/
theorem escapes_of_executes {s : Scheme} (h : s.ok = true) (hx : Executes s.U [s.m] calls s.q s.m 0) : Escapes s.U [s.m] calls X imports visible := by
  unfold ok at h
  simp only [Bool.and_eq_true, decide_eq_true_eq, List.all_eq_true] at h
  obtain ⟨⟨⟨⟨⟨⟨⟨⟨h1, h2⟩, h3⟩, h4⟩, h5⟩, h6⟩, h7⟩, h8⟩, c71, n71, cq, dq, nq, et, hg, h41, hq⟩ := h
  have ran : runVerify s.pkg schedule false = .ok s.out := by
    unfold out
    split at h1
    · rename_i o ho; rw [ho]
    · cases h1
  have objects := okObjects_spec h3 rfl
  have program := okIfaces_spec h4
  have types := okTypes_spec h5 rfl
  have mem : s.m ∈ [s.m] := List.mem_singleton.2 rfl
  have single : ∀ {p : Member → Prop}, p s.m → ∀ x ∈ [s.m], p x := fun hp x hx => by rw [List.mem_singleton.1 hx]; exact hp
  have other : ∀ {o : Nat}, 20 ≤ o → ∀ {name : GoString} {q : Object}, s.U.methods (.named o) name = some q → name = b!"Get" := by
    intro o ho name q hq
    have h8 : o ≠ 8 := by omega
    by_cases hn : name = b!"Get"
    · exact hn
    · simp [U, hn] at hq
  refine ⟨⟨single schedule_fair, single ran, fun _ _ _ _ _ hi => hi.elim, ?_, fun _ _ _ hi => hi.elim⟩,
    ⟨single objects, single types, single program, List.pairwise_singleton _ _⟩,
    single (.inl ⟨okPackage_scope h6 ran schedule_fair objects program (fun _ => rfl) (fun _ _ => rfl) (fun _ _ h => h.elim), h2.1, h2.2.1, h2.2.2.1⟩),
    ?_, single ?_, s.m, mem, 1, ?_⟩
  · refine single ?_
    intro o x hx
    cases x <;> cases hx
  · have refers : ∀ o, Refers [s.m] imports visible s.m o := fun o q hq _ => .inl (List.mem_singleton.1 hq)
    refine ⟨single rfl, single fun _ _ _ o _ => refers o, single fun _ _ _ _ o _ => refers o, single ?_, single ?_, single ?_, single ?_⟩
    · intro d hd im him
      have := List.all_eq_true.1 h7 d hd
      simp only [Bool.and_eq_true, List.all_eq_true] at this
      exact Option.isSome_iff_exists.1 (this.1 _ him)
    · intro d hd e he name q hq
      have := List.all_eq_true.1 h7 d hd
      simp only [Bool.and_eq_true, List.all_eq_true] at this
      have h7 := this.1 _ he
      have := (h8 d hd).2 _ he
      dsimp only at this
      split at this
      · rename_i o ho
        have ho' : s.m.pkg.env.typeOf e.id = .named o := ho
        rw [ho'] at hq
        have := other (by simpa using this) hq
        subst this
        cases e with
        | name id n =>
          have ho : s.env.typeOf id = .named o := ho
          simp only [ho, hq] at h7
          simpa [Option.isSome_iff_exists] using h7
        | qualified => cases h7
      · cases this
    · intro d hd name q hq
      have h20 := (h8 d hd).1
      have := other h20 hq
      subst this
      have := List.all_eq_true.1 h7 d hd
      simp only [Bool.and_eq_true, hq, List.any_eq_true] at this
      obtain ⟨e, he, hm⟩ := this.2
      cases e with
      | method im =>
        simp only [Bool.and_eq_true, beq_iff_eq] at hm
        exact .inl ⟨im, he, hm.1, hm.2⟩
      | embedded e =>
        refine .inr ⟨e, he, ?_⟩
        exact eq_of_beq hm
    · intro d hd id he
      have := List.all_eq_true.1 h7 d hd
      simp only [Bool.and_eq_true, List.all_eq_true] at this
      have := this.1 _ he
      cases this
  · rintro ⟨x, hx, -⟩
    rw [show s.m.out.ifaces = [] from h2.2.2.2.1] at hx
    cases hx
  · obtain ⟨c, hc, hcodes⟩ := ((exported_codes ran schedule_fair objects program).1 1 (.tail _ (.head _)) [b!"a-error"]).1 c71
    refine ⟨c, 2, ⟨errT, b!"b-error"⟩, b!"b-error", hc, ?_, ?_, .inr ⟨nofun, rfl⟩, nofun, by rw [← hcodes]; decide⟩
    · cases hp : c.param with
      | none => rfl
      | some p =>
        have := ((exported_constructors ran schedule_fair objects).1 1 (.tail _ (.head _)) p.position).2 ⟨c, p, hc, hp, rfl⟩
        have n71 : s.out.facts.ctor (s.pkg.env.funcObj 1) = none := n71
        rw [n71] at this
        cases this
    · have honours : ∀ (id : NodeId) (o : Obj), Honours (comparing s.m) id o := by
        intro id o x hx
        cases hx
      have get : Returns s.U [s.m] calls X 1 s.m 0 b!"b-error" ⟨errT, b!"b-error"⟩ := by
        refine .returned (body := s.bodyGet) (id := 40) rfl ⟨_, List.mem_singleton.2 rfl, .self⟩ (.inl rfl) ?_ (honours _ _)
        have ht : typeAt (comparing s.m) 41 = some errT := by
          have : (comparing s.m).typeOf 41 = .pointer (.named 7) := by
            show (match s.typeOf 41 with | some t => t | none => _) = _
            rw [h41]; rfl
          simp only [typeAt, Env.getErrorTypeForError, this, getNamedType]
          exact et
        refine .pointerLiteral (id := 41) (cid := 42) (elts := [s.elt]) rfl rfl ht fun field hf => ?_
        cases hf
        refine .inr (.inl ⟨?_, s.elt, rfl, ?_⟩)
        · intro e he id k v
          rw [List.mem_singleton.1 he]
          unfold elt
          split <;> exact nofun
        · unfold elt
          split
          · rename_i hgiven
            exact .read (i := ⟨43, b!"code", some 1⟩) (x := 1) (fun s h => by cases h) rfl rfl (.argument ⟨0, _, hg hgiven, rfl, rfl⟩)
          · exact .constant rfl
      obtain ⟨S, hS⟩ := Option.ne_none_iff_exists'.1 dq
      refine .returned (body := bodyRun) (id := 1) rfl ⟨_, List.mem_singleton.2 rfl, .self⟩ (.inl rfl) ?_ (honours _ _)
      refine .called rfl (.trusted (q := s.q) (S := S) (a := b!"b-error") rfl ⟨rfl, hS⟩ ?_
        ⟨s.m, 0, hx, get⟩)
      intro p hp
      have hp : s.out.facts.ctor s.q = some p := hp
      rw [nq] at hp
      cases hp

/-- Such a program, in which values of type `Impl` get into variables of the type of `g`. -/
theorem escapes {s : Scheme} (h : s.ok = true) (hh : Holds s.U [s.m] calls (.named 8) s.I) : Escapes s.U [s.m] calls X imports visible := by
  refine escapes_of_executes h (.dynamic (I := s.I) (T := .named 8) (name := b!"Get") ?_ hh (q' := 70) rfl
    (.static (g := 0) (List.mem_singleton.2 rfl) (.head _)))
  unfold ok at h
  simp only [Bool.and_eq_true, decide_eq_true_eq, List.all_eq_true] at h
  exact h.2.2.2.2.2.2.2.2.2

/-! ### Programs -/

def bError : GoString := b!"Errors:\n\n  - b-error -- always\n"

/-- An interface with a method `Get`. -/
def iface (name : GoString) (obj : Object) (id : NodeId) (doc : GoString) : IfaceDecl :=
  ⟨name, obj, .interface 1, [.method ⟨65, ⟨id, b!"Get", none⟩, ⟨[⟨[], 58⟩], some [⟨[], 67⟩], 0⟩, some doc⟩]⟩

/-- `var name T = Impl{}`, with type expression 501. -/
def varImpl : Node := .other 499 [.valueSpec 500 [⟨503, b!"x", some 3⟩] (some 501) [.compositeLit 502 []]]

theorem holds_impl {s : Scheme} {I : GoType} (hI : s.U.Interface I) (hv : s.vars.head? = some varImpl) (h1 : s.typeOf 501 = some I)
    (h2 : s.typeOf 502 = some (.named 8)) : Holds s.U [s.m] calls (.named 8) I := by
  have e1 : s.env.typeOf 501 = I := by simp [env, h1]
  have e2 : s.env.typeOf 502 = .named 8 := by simp [env, h2]
  have hmem : Conv.TopDecl.node varImpl ∈ s.m.pkg.top :=
    List.mem_append.2 (.inr (List.mem_map.2 ⟨_, List.mem_of_mem_head? (by rw [hv]; exact rfl), rfl⟩))
  refine .converted (m := s.m) (List.mem_singleton.2 rfl) (fun h => by have := Universe.isInterface_iff.2 h; cases this) nofun
    ⟨502, .valueSpec 500 [⟨503, b!"x", some 3⟩] (some 501) [.compositeLit 502 []], none,
      .inr ⟨_, hmem, .inside nofun (List.mem_singleton.2 rfl) (.self nofun)⟩, ?_⟩ hI
  have := ConvSpec.Converts.var (env := converting s.m) (info := s.m.pkg.conv) (calls := calls s.m) (within_ := none) (id := 500)
    (names := [⟨503, b!"x", some 3⟩]) (type := 501) (values := [.compositeLit 502 []]) rfl (List.mem_singleton.2 rfl)
  exact e1 ▸ e2 ▸ this

/-- `constructors`: the method of `Impl` is an error constructor, of which only the other codes are compared.
```go
type Getter interface {
	// Errors:
	//   - a-error -- always
	Get(code string) error
}

// Errors:
//   - param: code -- the given one
func (Impl) Get(code string) error { return &Err{code} }

func Run(g Getter) error { return g.Get("b-error") }

var x Getter = Impl{}
```
-/
def constructor : Scheme where
  ifaces := [iface b!"Getter" 20 64 Example.aError]
  methodObj := fun n => if n = 64 then 90 else 0
  methods := [(.named 20, 90)]
  specs := [20]
  I := .named 20
  q := 90
  doc := b!"Errors:\n\n  - param: code -- the given one\n"
  given := true
  vars := [varImpl]
  typeOf := fun n => if n = 501 then some (.named 20) else if n = 502 then some (.named 8) else none

theorem constructor_escapes : Escapes constructor.U [constructor.m] calls X imports visible :=
  escapes (by decide) (holds_impl ⟨1, rfl⟩ rfl rfl rfl)

/-- `named`: a type declared by means of another interface has the same methods (the same objects), but is no error interface for the
analyzer.
```go
type Getter interface {
	// Errors:
	//   - a-error -- always
	Get(code string) error
}
type Same Getter

// Errors:
//   - b-error -- always
func (Impl) Get(code string) error { return &Err{"b-error"} }

func Run(g Same) error { return g.Get("b-error") }

var x Same = Impl{}
```
-/
def same : Scheme where
  ifaces := [iface b!"Getter" 20 64 Example.aError]
  methodObj := fun n => if n = 64 then 90 else 0
  methods := [(.named 20, 90), (.named 21, 90)]
  specs := [20, 21]
  I := .named 21
  q := 90
  doc := bError
  given := false
  vars := [varImpl]
  typeOf := fun n => if n = 501 then some (.named 21) else if n = 502 then some (.named 8) else none

theorem same_escapes : Escapes same.U [same.m] calls X imports visible :=
  escapes (by decide) (holds_impl ⟨1, rfl⟩ rfl rfl rfl)

/-- `found`: such an interface is not found when it is embedded either (nor one from a dot-import).
```go
type Getter interface {
	// Errors:
	//   - a-error -- always
	Get(code string) error
}
type Same Getter
type Embedding interface{ Same }

// Errors:
//   - b-error -- always
func (Impl) Get(code string) error { return &Err{"b-error"} }

func Run(g Embedding) error { return g.Get("b-error") }

var x Embedding = Impl{}
```
-/
def embedding : Scheme where
  ifaces := [iface b!"Getter" 20 64 Example.aError, ⟨b!"Embedding", 23, .interface 1, [.embedded (.name 510 b!"Same")]⟩]
  methodObj := fun n => if n = 64 then 90 else 0
  methods := [(.named 20, 90), (.named 21, 90), (.named 23, 90)]
  specs := [20, 21, 23]
  I := .named 23
  q := 90
  doc := bError
  given := false
  vars := [varImpl]
  typeOf := fun n => if n = 501 then some (.named 23) else if n = 502 then some (.named 8) else if n = 510 then some (.named 21) else none

theorem embedding_escapes : Escapes embedding.U [embedding.m] calls X imports visible :=
  escapes (by decide) (holds_impl ⟨1, rfl⟩ rfl rfl rfl)

/-- `embedded`: embedded interfaces are searched by their name, but the name may denote something else, since interfaces declared inside
functions are collected too.
```go
type Getter interface {
	// Errors:
	//   - a-error -- always
	Get(code string) error
}
type Local Getter
type Embedding interface{ Local }

func f() {
	type Local interface {
		// Errors:
		//   - b-error -- always
		Get(code string) error
	}
}

// Errors:
//   - b-error -- always
func (Impl) Get(code string) error { return &Err{"b-error"} }

func Run(g Embedding) error { return g.Get("b-error") }

var x Embedding = Impl{}
```
-/
def shadowed : Scheme where
  ifaces := [iface b!"Getter" 20 64 Example.aError, iface b!"Local" 24 63 bError,
    ⟨b!"Embedding", 23, .interface 1, [.embedded (.name 510 b!"Local")]⟩]
  methodObj := fun n => if n = 64 then 90 else if n = 63 then 93 else 0
  methods := [(.named 20, 90), (.named 21, 90), (.named 23, 90), (.named 24, 93)]
  specs := [20, 21, 23, 24]
  I := .named 23
  q := 90
  doc := bError
  given := false
  vars := [varImpl]
  typeOf := fun n => if n = 501 then some (.named 23) else if n = 502 then some (.named 8) else if n = 510 then some (.named 21) else none

theorem shadowed_escapes : Escapes shadowed.U [shadowed.m] calls X imports visible :=
  escapes (by decide) (holds_impl ⟨1, rfl⟩ rfl rfl rfl)

/-! Values that get into a variable of one interface, and from there into one of another. -/

/-- `var y T = x`, with type expression 505. -/
def varCopy : Node := .other 498 [.valueSpec 504 [⟨507, b!"y", some 4⟩] (some 505) [.ident ⟨506, b!"x", some 3⟩]]

theorem holds_copy {s : Scheme} {I J : GoType} (hI : s.U.Interface I) (hh : Holds s.U [s.m] calls (.named 8) J)
    (hv : s.vars.getLast? = some varCopy) (h1 : s.typeOf 505 = some I) (h2 : s.typeOf 506 = some J) : Holds s.U [s.m] calls (.named 8) I := by
  have e1 : s.env.typeOf 505 = I := by simp [env, h1]
  have e2 : s.env.typeOf 506 = J := by simp [env, h2]
  have hmem : Conv.TopDecl.node varCopy ∈ s.m.pkg.top :=
    List.mem_append.2 (.inr (List.mem_map.2 ⟨_, List.mem_of_mem_getLast? (by rw [hv]; exact rfl), rfl⟩))
  refine .passed (m := s.m) (J := J) (List.mem_singleton.2 rfl) hh
    ⟨506, .valueSpec 504 [⟨507, b!"y", some 4⟩] (some 505) [.ident ⟨506, b!"x", some 3⟩], none,
      .inr ⟨_, hmem, .inside nofun (List.mem_singleton.2 rfl) (.self nofun)⟩, ?_⟩ hI
  have := ConvSpec.Converts.var (env := converting s.m) (info := s.m.pkg.conv) (calls := calls s.m) (within_ := none) (id := 504)
    (names := [⟨507, b!"y", some 4⟩]) (type := 505) (values := [.ident ⟨506, b!"x", some 3⟩]) rfl (List.mem_singleton.2 rfl)
  exact e1 ▸ e2 ▸ this

/-- `tight`: methods of interfaces without declared codes may do anything.
```go
type Getter interface {
	// Errors:
	//   - a-error -- always
	Get(code string) error
}

// Errors:
//   - b-error -- always
func (Impl) Get(code string) error { return &Err{"b-error"} }

func Run(g Getter) error { return g.Get("b-error") }

var x interface{ Get(code string) error } = Impl{}
var y Getter = x
```
-/
def loose : Scheme where
  ifaces := [iface b!"Getter" 20 64 Example.aError]
  methodObj := fun n => if n = 64 then 90 else 0
  methods := [(.named 20, 90), (.interface 1, 91)]
  specs := [20]
  I := .named 20
  q := 90
  doc := bError
  given := false
  vars := [varImpl, varCopy]
  typeOf := fun n => if n = 501 ∨ n = 506 then some (.interface 1) else if n = 502 then some (.named 8) else if n = 505 then some (.named 20) else none

theorem loose_escapes : Escapes loose.U [loose.m] calls X imports visible :=
  escapes (by decide) (holds_copy ⟨1, rfl⟩ (holds_impl (I := .interface 1) ⟨1, rfl⟩ rfl rfl rfl) rfl rfl rfl)

/-- `documented`: an interface has a method with declared codes, but the method is one of an embedded interface without them.
```go
type Loose …  // an interface with the method Get(code string) error, but without declared codes
type Getter interface {
	// Errors:
	//   - b-error -- always
	Get(code string) error
}
type Both interface {
	Loose
	Getter
}
type Strict interface {
	// Errors:
	//   - a-error -- always
	Get(code string) error
}

// Errors:
//   - b-error -- always
func (Impl) Get(code string) error { return &Err{"b-error"} }

func Run(g Strict) error { return g.Get("b-error") }

var x Both = Impl{}
var y Strict = x
```
-/
def both : Scheme where
  ifaces := [iface b!"Getter" 20 64 bError, ⟨b!"Both", 21, .interface 1, [.embedded (.name 510 b!"Loose"), .embedded (.name 511 b!"Getter")]⟩,
    iface b!"Strict" 23 63 Example.aError]
  methodObj := fun n => if n = 64 then 90 else if n = 63 then 92 else 0
  methods := [(.named 20, 90), (.named 22, 91), (.named 21, 91), (.named 23, 92)]
  specs := [20, 21, 22, 23]
  I := .named 23
  q := 92
  doc := bError
  given := false
  vars := [varImpl, varCopy]
  typeOf := fun n => if n = 501 ∨ n = 506 then some (.named 21) else if n = 502 then some (.named 8) else if n = 505 then some (.named 23)
    else if n = 510 then some (.named 22) else if n = 511 then some (.named 20) else none

theorem both_escapes : Escapes both.U [both.m] calls X imports visible :=
  escapes (by decide) (holds_copy ⟨1, rfl⟩ (holds_impl (I := .named 21) ⟨1, rfl⟩ rfl rfl rfl) rfl rfl rfl)

/-- `var y = x.(T)`, with type expression 505. -/
def varAssert : Node := .other 498 [.valueSpec 504 [⟨507, b!"y", some 4⟩] none [.typeAssert 508 (.ident ⟨506, b!"x", some 3⟩) (some 505)]]

/-- `assertions`: whether the values of an interface type implement another one is checked at run time, and their codes are not checked.
```go
type Getter interface {
	// Errors:
	//   - a-error -- always
	Get(code string) error
}

// Errors:
//   - b-error -- always
func (Impl) Get(code string) error { return &Err{"b-error"} }

func Run(g Getter) error { return g.Get("b-error") }

var x any = Impl{}
var y = x.(Getter)
```
-/
def asserted : Scheme where
  ifaces := [iface b!"Getter" 20 64 Example.aError]
  methodObj := fun n => if n = 64 then 90 else 0
  methods := [(.named 20, 90)]
  specs := [20]
  I := .named 20
  q := 90
  doc := bError
  given := false
  vars := [varImpl, varAssert]
  typeOf := fun n => if n = 501 ∨ n = 506 then some (.named 30) else if n = 502 then some (.named 8) else if n = 505 then some (.named 20) else none

theorem asserted_escapes : Escapes asserted.U [asserted.m] calls X imports visible := by
  refine escapes (by decide) (.asserted (m := asserted.m) (J := .named 30) (List.mem_singleton.2 rfl) (holds_impl ⟨3, rfl⟩ rfl rfl rfl)
    ⟨.typeAssert 508 (.ident ⟨506, b!"x", some 3⟩) (some 505), none, .inr ⟨varAssert, ?_, ?_⟩, .inl ⟨_, _, _, rfl, rfl, rfl⟩⟩ ⟨1, rfl⟩)
  · exact List.mem_append.2 (.inr (List.mem_map.2 ⟨_, by simp [asserted], rfl⟩))
  · exact .inside nofun (List.mem_singleton.2 rfl) (.inside nofun (by simp [Node.children]) (.self nofun))

/-- `var x Getter = Wrapper{Impl{}}` -/
def varWrapper : Node := .other 499 [.valueSpec 500 [⟨503, b!"x", some 3⟩] (some 501) [.compositeLit 502 [.compositeLit 509 []]]]

/-- `declared`: methods from elsewhere without declared codes are accepted; here that of an embedded interface.
```go
type Getter interface {
	// Errors:
	//   - a-error -- always
	Get(code string) error
}
type Wrapper struct{ Loose }  // Loose as above

// Errors:
//   - b-error -- always
func (Impl) Get(code string) error { return &Err{"b-error"} }

func Run(g Getter) error { return g.Get("b-error") }

var x Getter = Wrapper{Impl{}}
```
-/
def wrapper : Scheme where
  ifaces := [iface b!"Getter" 20 64 Example.aError]
  methodObj := fun n => if n = 64 then 90 else 0
  methods := [(.named 20, 90), (.interface 1, 91), (.named 10, 91)]
  specs := [20, 10]
  I := .named 20
  q := 90
  doc := bError
  given := false
  vars := [varWrapper]
  typeOf := fun n => if n = 501 then some (.named 20) else if n = 502 then some (.named 10) else if n = 509 then some (.named 8) else none

theorem wrapper_escapes : Escapes wrapper.U [wrapper.m] calls X imports visible := by
  have mem : wrapper.m ∈ [wrapper.m] := List.mem_singleton.2 rfl
  have top : Conv.TopDecl.node varWrapper ∈ wrapper.m.pkg.top := List.mem_append.2 (.inr (List.mem_map.2 ⟨_, by simp [wrapper], rfl⟩))
  have noIface : ∀ {o : Nat}, wrapper.U.isInterface (.named o) = false → ¬ wrapper.U.Interface (.named o) := fun h h' => by
    rw [Universe.isInterface_iff.2 h'] at h; cases h
  have h1 : Holds wrapper.U [wrapper.m] calls (.named 10) (.named 20) :=
    .converted mem (noIface rfl) nofun ⟨502, .valueSpec 500 [⟨503, b!"x", some 3⟩] (some 501) [.compositeLit 502 [.compositeLit 509 []]], none,
      .inr ⟨_, top, .inside nofun (List.mem_singleton.2 rfl) (.self nofun)⟩,
      ConvSpec.Converts.var (env := converting wrapper.m) (info := wrapper.m.pkg.conv) (calls := calls wrapper.m) (within_ := none) (id := 500)
        (names := [⟨503, b!"x", some 3⟩]) (type := 501) (values := [.compositeLit 502 [.compositeLit 509 []]]) rfl (List.mem_singleton.2 rfl)⟩ ⟨1, rfl⟩
  have h2 : Holds wrapper.U [wrapper.m] calls (.named 8) (.interface 1) :=
    .converted mem (noIface rfl) nofun ⟨509, .compositeLit 502 [.compositeLit 509 []], none,
      .inr ⟨_, top, .inside nofun (List.mem_singleton.2 rfl) (.inside nofun (by simp [Node.children]) (.self nofun))⟩,
      ConvSpec.Converts.field (env := converting wrapper.m) (info := wrapper.m.pkg.conv) (calls := calls wrapper.m) (within_ := none) (id := 502)
        (elts := [.compositeLit 509 []]) (n := 10) (name := b!"Loose") (type := .interface 1) (i := 0) (e := .compositeLit 509 []) rfl rfl rfl nofun⟩ ⟨1, rfl⟩
  exact escapes_of_executes (by decide) (.dynamic (name := b!"Get") rfl h1 (q' := 91) rfl
    (.dynamic (I := .interface 1) (name := b!"Get") rfl h2 (q' := 70) rfl (.static (g := 0) mem (.head _))))

end Scheme
end Serum.Props.Linked
