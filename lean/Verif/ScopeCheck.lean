import Verif.BodyCheck
import Verif.Props.Soundness

/-!
# Deciding the scope of C24

`inScope` decides, by evaluation, a sufficient condition for a function being one for which C24 is claimed (`Props.Soundness.InScope`).
-/

namespace Serum.Check
open Serum Flow Taint Analyse Runtime Props.Calls Props.Extract Props.Claims

variable (env : Env) (X : Extra) (f : FnId) (body : List Node)

/-- What may be assigned to some variable. -/
def allSources : List Node :=
  (List.range env.objects.length).flatMap (initials env) ++ (nodes body).flatMap fun n => match n with | .assign _ _ rhs => rhs | _ => []

/-! ## Annotations -/

/-- The return statements. -/
def returns : List (NodeId × List Node) :=
  (Node.inspectList ofFunction body).filterMap fun n => match n with | .ret id rs => some (id, rs) | _ => none

/-- The variables that may be returned by one return statement. -/
def varsOf (rs : List Node) : List ObjId := closure (flows env body) 16 (objsOf env (resultExpression (env.func f).type rs).toOption.toList)

def varsOk (rs : List Node) : Bool :=
  (objsOf env (resultExpression (env.func f).type rs).toOption.toList).all (varsOf env f body rs).contains &&
  closed (flows env body) (varsOf env f body rs)

/-- Returned variables do not share annotations that remove codes. -/
def separateCheck : Bool :=
  (returns body).all fun r => (returns body).all fun r' => r.1 == r'.1 || (Removed env r'.1).isEmpty ||
    (varsOk env f body r.2 && varsOk env f body r'.2 && (varsOf env f body r.2).all fun x => !(varsOf env f body r'.2).contains x)

/-! ## What the parser and the type checker guarantee -/

def pairName : Node → Option GoString
  | .keyValue _ (.ident i) _ => some i.name
  | _ => none

def keyed (elts : List Node) : Bool := (elts.all fun e => (pairName e).isSome) && decide (elts.map pairName).Nodup

def litCheck (e : Node) : Bool :=
  match e with
  | .compositeLit _ elts => keyed elts || positional elts
  | _ => true

def notAnd (e : Node) : Bool := match e with | .unary _ true _ => false | _ => true

def exprCheck (e : Node) : Bool :=
  (refs env e).all okIdent &&
  match e.unparen with
  | .selector _ _ sel => sel.obj.isNone && sel.name != b!"nil"
  | .unary _ true y => litCheck y.unparen && notAnd y.unparen
  | e => litCheck e

def isText (v : Option Const) : Bool := match v with | some (.str _) => true | _ => false

def sourceCheck (e : Node) : Bool :=
  decide (env.value e.unparen.id = env.value e.id) &&
  match e.unparen with
  | .ident i => okIdent i && ((varOf env e).isEmpty || !isText (env.value e.id))
  | _ => true

/-- The functions of the package which an expression denotes. -/
def definedOf (fn : Node) : List FnId :=
  match fn.unparen with
  | .ident i => match i.obj with
    | some o => (match (env.object o).decl with | .funcDecl g => [g] | _ => [])
    | none => (env.functions i.name).toList
  | .selector id x sel =>
    match (match x.unparen with | .ident t => env.pkgName t.id | _ => none), env.selection id with
    | none, some (recv, _) => (env.searchMethod recv sel.name).toList
    | _, _ => []
  | .funcLit _ g _ _ => [g]
  | _ => []

/-- The called variable (or type). -/
def fnVarOf (fn : Node) : List ObjId :=
  match fn.unparen with
  | .ident i => (match i.obj with
    | some x => (match (env.object x).decl with | .funcDecl _ => [] | _ => [x])
    | none => [])
  | _ => []

def isTypeName (x : ObjId) : Bool := match (env.object x).decl with | .typeSpec => true | _ => false

def callCheck (id : NodeId) (fn : Node) : Bool :=
  (match fn.unparen with | .ident i => okIdent i | _ => true) &&
  if X.conversion id then
    (env.callee id).isNone && (definedOf env fn).isEmpty && (fnVarOf env fn).all (isTypeName env) && decide (typeAt env id = typeAt env fn.id)
    && (match typeAt env fn.id with | some et => et.codes.isEmpty || et.field.isNone | none => true)
  else
    (fnVarOf env fn).all (fun x => !isTypeName env x) &&
    ((definedOf env fn).all fun g => (env.func g).declName.isNone || env.callee id == some (env.funcObj g)) &&
    ((env.callee id).isSome || (extractErrorCodesFromTypeConversion env fn).isEmpty)

def functionValue (e : Node) : Bool :=
  (match e.unparen with
    | .ident j => (match j.obj with
      | some o => (match (env.object o).decl with | .funcDecl _ => true | _ => false)
      | none => true)
    | _ => true) &&
  (definedOf env e).all fun g => (env.func g).declName.isNone || Denotes env e == some (env.funcObj g)

/-! ## The limits of the analyzer -/

def wildOf : Node → List ObjId
  | .funcLit _ _ type _ => ((type.params ++ type.results.getD []).flatMap Field.names).filterMap Ident.obj
  | .range _ k v _ _ => (k.toList ++ v.toList).filterMap fun n => match n.unparen with | .ident i => i.obj | _ => none
  | .unary id true e => if env.implError (env.typeOf id) then [] else (match e.unparen with | .ident i => i.obj.toList | _ => [])
  | .assign id lhs _ => if X.op id then lhs.filterMap fun l => match l.unparen with | .ident i => i.obj | _ => none else []
  | _ => []

def wild : List ObjId := (nodes body).flatMap (wildOf env X)

/-- A variable that is called, or the error code parameter, with the variables tracked from it. -/
def rootCheck (i : Ident) : Bool :=
  cleanIdent env body i && i.obj.toList.all fun o =>
    (closure (flows env body) 16 [o]).contains o && closed (flows env body) (closure (flows env body) 16 [o]) &&
    (closure (flows env body) 16 [o]).all fun x => !(wild env X body).contains x

def calledRoot (i : Ident) : Bool :=
  rootCheck env X body i && i.obj.toList.all fun o => (closure (flows env body) 16 [o]).all fun x =>
    (sources env body x).all fun e => !(varOf env e).isEmpty || functionValue env e

def callsCheck (n : Node) : Bool :=
  match n with
  | .call id fn _ => callCheck env X id fn && (match fn.unparen with | .ident i => calledRoot env X body i | _ => true) &&
    (match env.callee id with | some q => (env.facts.ctor q).isNone || X.shift id == 0 | none => true)
  | _ => true

def resultNames : List Ident := ((env.func f).type.results.getD []).flatMap Field.names

def zeroDeclared (x : ObjId) : Bool :=
  (match (env.object x).decl with | .valueSpec _ [] => true | _ => false) || (resultNames env f).any (fun i => i.obj == some x) ||
  (splits env body x).any fun e => isAssertion e.unparen

def codesOf (i : Ident) : CodeSet :=
  match env.typeOf i.id with
  | .named o => (match env.facts.errorType o with | some et => et.codes | none => [])
  | _ => []

def idents : List Ident := (nodes body).filterMap fun n => match n with | .ident i => some i | _ => none

def zeroCheck (x : ObjId) : Bool :=
  !zeroDeclared env f body x || (idents body ++ resultNames env f).all fun i => i.obj != some x || (codesOf env i).isEmpty

/-- The variable is returned (and declared in the function). -/
def surely (x : ObjId) : Bool :=
  (returns body).any fun r => (match (getReturnStmtAnnotations (env.comments r.1)).1 with | some a => !a.shouldOverwrite | none => true) &&
    match resultExpression (env.func f).type r.2 with
    | .ok e => (refs env e).any fun i => i.obj == some x && i.name != b!"nil" &&
        decide (startPos (env.func f) < (env.object x).pos) && decide ((env.object x).pos < (env.func f).bodyEnd) && !(litParams body).contains x
    | .error _ => false

def fieldTypeOf (i : Ident) : Option ErrorType := (getNamedType (env.typeOf i.id)).bind env.facts.errorType

/-- Is it an assignment to a code field? -/
def storesTo (l : Node) : Option ErrorType := match l.unparen with | .selector sid _ _ => X.codeField sid | _ => none

def isStore : Node → Bool
  | .assign _ lhs _ => lhs.any fun l => (storesTo X l).isSome
  | _ => false

def storeTarget (et : ErrorType) (l : Node) : Bool :=
  match l with
  | .selector _ (.ident i) sel => i.obj.isSome && i.obj.toList.all (fun x => surely env f body x &&
      (fieldTargets body).all fun j => j.obj != some x || fieldTypeOf env j == some et) &&
      et.field.isSome && et.field.toList.all fun fd => sel.name == fd.name
  | _ => false

def storeCheck : Node → Bool
  | .assign id lhs rhs => (lhs.all fun l => !X.deref l.unparen.id) &&
    (lhs.all fun l => (storesTo X l).toList.all fun et => !X.op id && storeTarget env f body et l) &&
    (Node.inspectList (fun _ => true) (lhs ++ rhs)).all fun n => !isStore X n
  | _ => true

/-- The error code parameter. -/
def codeParamCheck : Bool :=
  match importErrorConstructorFact env f with
  | none => true
  | some p => (env.func f).type.params.all (fun g => !g.names.isEmpty) && (match (paramNames (env.func f).type.params)[p]? with
    | some i => i.name != b!"nil" && rootCheck env X body i
    | none => true)

/-- The condition. -/
def inScope : Bool :=
  fine env f body && separateCheck env f body && (errExprs env f body).all (exprCheck env) && (allSources env body).all (sourceCheck env) &&
  (errCalls env f body).all (callsCheck env X body) && (errVars env f body).all (fun x => !(wild env X body).contains x) &&
  (errVars env f body).all (zeroCheck env f body) && (nodes body).all (storeCheck env X f body) && !X.deferred f && codeParamCheck env X f body

/-! ## What it means -/

variable {env X f body}

/-- Separate -/
theorem varsOf_mem {rs : List Node} (h : varsOk env f body rs = true) {e : Node} (he : ErrExprFrom env f body (ResultOf env f rs) e) :
    ∀ i x, RefersTo env e i → i.obj = some x → x ∈ varsOf env f body rs := by
  simp only [varsOk, Bool.and_eq_true, List.all_eq_true, List.contains_eq_mem, decide_eq_true_eq] at h
  induction he with
  | root hr =>
    intro i x hi ho
    refine h.1 x (objsOf_mem (e := _) ?_ hi ho)
    rw [resultExpression_ok.2 hr]
    simp [Except.toOption]
  | @assigned _ _ x _ _ hv hs ih =>
    have hx := ih _ _ hv.1 hv.2.1
    have hm := List.mem_append_left (asserted (splits env body x)) (source_mem hs)
    exact fun i x hi ho => closed_sound h.2 hx (objsOf_mem hm hi ho)
  | @asserted _ _ x _ _ _ _ _ hv hd hu ih =>
    have hx := ih _ _ hv.1 hv.2.1
    have hm := List.mem_append_right (sources env body x) (asserted_mem (split_mem hd) hu)
    exact fun i x hi ho => closed_sound h.2 hx (objsOf_mem hm hi ho)

theorem returns_mem {id : NodeId} {rs : List Node} (h : Returns env body id rs) : (id, rs) ∈ returns body :=
  List.mem_filterMap.2 ⟨.ret id rs, (mem_inspectList _ _ _).2 h.1, rfl⟩

theorem returns_of {id : NodeId} {rs : List Node} (h : (id, rs) ∈ returns body) : WithinList ofFunction (.ret id rs) body := by
  obtain ⟨n, hn, h⟩ := List.mem_filterMap.1 h
  split at h
  · cases h; exact (mem_inspectList _ _ _).1 hn
  · cases h

theorem separate_sound (h : separateCheck env f body = true) : Separate env f body := by
  intro id rs id' rs' x hr hr' hne hx hx'
  simp only [separateCheck, List.all_eq_true] at h
  have := h _ (returns_mem hr) _ (returns_mem hr')
  simp only [Bool.or_eq_true, beq_iff_eq, hne, false_or, List.isEmpty_iff, Bool.and_eq_true, List.all_eq_true, Bool.not_eq_true',
    List.contains_eq_mem, decide_eq_false_iff_not] at this
  refine this.resolve_right fun ⟨⟨h1, h2⟩, h3⟩ => ?_
  obtain ⟨e, i, he, hv⟩ := hx
  obtain ⟨e', i', he', hv'⟩ := hx'
  exact h3 x (varsOf_mem h1 he i x hv.1 hv.2.1) (varsOf_mem h2 he' i' x hv'.1 hv'.2.1)

theorem source_all {x : ObjId} {e : Node} (h : Source env body x e) : e ∈ allSources env body := by
  rcases h with hs | ⟨id, lhs, rhs, ho, -, k, l, t, -, -, -, hk⟩
  · refine List.mem_append_left _ (List.mem_flatMap.2 ⟨x, List.mem_range.2 ?_, initialised_mem hs⟩)
    refine Nat.lt_of_not_le fun hx => ?_
    obtain ⟨_, _, _, _, hd, -⟩ := hs
    simp [Env.object, List.getD, List.getElem?_eq_none hx] at hd
  · exact List.mem_append_right _ (List.mem_flatMap.2 ⟨_, mem_nodes.2 ho, List.mem_of_getElem? hk⟩)

theorem okIdent_sound {i : Ident} {x : ObjId} (h : okIdent i = true) (ho : i.obj = some x) : i.name ≠ b!"nil" := by
  simpa [okIdent, ho] using h

theorem pairName_iff {e : Node} {n : GoString} : pairName e = some n ↔ ∃ v, IsPair e n v := by
  unfold pairName IsPair
  constructor
  · intro h
    split at h
    · rename_i id i v; cases h; exact ⟨v, id, i, rfl, rfl⟩
    · cases h
  · rintro ⟨v, id, i, rfl, rfl⟩; rfl

theorem keyed_sound {elts : List Node} (h : keyed elts = true) : KeyedLit elts := by
  simp only [keyed, Bool.and_eq_true, List.all_eq_true, decide_eq_true_eq] at h
  refine ⟨fun e he => ?_, ?_⟩
  · obtain ⟨n, hn⟩ := Option.isSome_iff_exists.1 (h.1 e he)
    exact ⟨n, pairName_iff.1 hn⟩
  · have := h.2
    rw [List.Nodup, List.pairwise_map] at this
    exact this.imp fun hne n v w h1 h2 => hne (by rw [pairName_iff.2 ⟨v, h1⟩, pairName_iff.2 ⟨w, h2⟩])

theorem positional_sound {elts : List Node} (h : positional elts = true) : ∀ e ∈ elts, ∀ id k v, e ≠ .keyValue id k v := by
  rintro e he id k v rfl
  have := List.all_eq_true.1 h _ he
  simp at this

theorem lit_sound {id : NodeId} {elts : List Node} (h : litCheck (.compositeLit id elts) = true) :
    KeyedLit elts ∨ ∀ e ∈ elts, ∀ id k v, e ≠ .keyValue id k v := by
  simp only [litCheck, Bool.or_eq_true] at h
  exact h.imp keyed_sound positional_sound

theorem defined_mem {fn : Node} {g : FnId} (h : Defined env fn g) : g ∈ definedOf env fn := by
  unfold definedOf
  rcases h with ⟨i, o, hi, ho, hd⟩ | ⟨i, hi, ho, hg⟩ | ⟨id, x, sel, recv, o, hi, hp, hs, hm⟩ | ⟨id, type, b, hi⟩
  · simp [hi, ho, hd]
  · simp [hi, ho, hg]
  · have hq : (match x.unparen with | .ident t => env.pkgName t.id | _ => none) = none := by
      split
      · rename_i t ht; exact hp t ht
      · rfl
    simp only [hi, hs, hq, hm]
    simp
  · simp [hi]

theorem fnVar_mem {fn : Node} {x : ObjId} (h : FnVar env fn x) : x ∈ fnVarOf env fn := by
  obtain ⟨i, hi, hx, hn⟩ := h
  unfold fnVarOf
  simp [hi, hx]

theorem isTypeName_iff {x : ObjId} : isTypeName env x = true ↔ (env.object x).decl = .typeSpec := by
  unfold isTypeName
  split
  · rename_i h; simp [h]
  · rename_i h; simpa using h

theorem wild_mem {x : ObjId} (h : Wild env X body x) : x ∈ wild env X body := by
  have mk : ∀ {n}, Occurs n body → x ∈ wildOf env X n → x ∈ wild env X body := fun ho hx => List.mem_flatMap.2 ⟨_, mem_nodes.2 ho, hx⟩
  rcases h with h | h | h | h | h
  · obtain ⟨id, fn, type, b, ho, n, hn, hx⟩ := h
    refine mk ho (List.mem_filterMap.2 ⟨n, ?_, hx⟩)
    rw [List.flatMap_append]; exact List.mem_append_left _ hn
  · obtain ⟨id, k, v, e, b, n, i, ho, hkv, hu, hx⟩ := h
    refine mk ho (List.mem_filterMap.2 ⟨n, ?_, by simp [hu, hx]⟩)
    rcases hkv with rfl | rfl <;> simp
  · obtain ⟨id, fn, type, b, fields, ho, hf, n, hn, hx⟩ := h
    refine mk ho (List.mem_filterMap.2 ⟨n, ?_, hx⟩)
    rw [List.flatMap_append, hf]; exact List.mem_append_right _ hn
  · obtain ⟨id, e, i, ho, hu, hx, hi⟩ := h
    refine mk ho ?_
    simp [wildOf, hi, hu, hx]
  · obtain ⟨id, lhs, rhs, l, i, ho, hop, hl, hu, hx⟩ := h
    refine mk ho ?_
    simp only [wildOf, hop, if_true]
    exact List.mem_filterMap.2 ⟨l, hl, by simp [hu, hx]⟩

theorem not_wild {x : ObjId} (h : (!(wild env X body).contains x) = true) : ¬ Wild env X body x := fun hw => by
  have := wild_mem hw
  simp [List.contains_eq_mem, this] at h

theorem tracked_root {param : Option ObjId} {i : Ident} {x : ObjId} (ht : Tracked env (env.func f) body param [] i x) : ∃ r, i.obj = some r := by
  induction ht with
  | start ho _ _ _ => exact ⟨_, ho⟩
  | step _ _ _ _ _ _ ih => exact ih

theorem root_sound {i : Ident} (h : rootCheck env X body i = true) :
    CleanRoot env body i ∧ ∀ param x, Tracked env (env.func f) body param [] i x → ¬ Wild env X body x := by
  simp only [rootCheck, Bool.and_eq_true, List.all_eq_true, Option.mem_toList] at h
  refine ⟨cleanIdent_sound h.1, fun param x ht => ?_⟩
  obtain ⟨r, hr⟩ := tracked_root ht
  obtain ⟨⟨k1, k2⟩, k3⟩ := h.2 r hr
  refine not_wild (k3 x (tracked_mem k2 (fun y hy => ?_) ht))
  rw [hr] at hy; cases hy; simpa [List.contains_eq_mem] using k1

theorem called_sound {i : Ident} (h : calledRoot env X body i = true) {x : ObjId} (ht : Tracked env (env.func f) body none [] i x) {e : Node}
    (hs : Source env body x e) (hn : ¬ ∃ j y, VarUse env e j y) : functionValue env e = true := by
  simp only [calledRoot, rootCheck, Bool.and_eq_true, List.all_eq_true, Option.mem_toList] at h
  obtain ⟨r, hr⟩ := tracked_root ht
  obtain ⟨⟨k1, k2⟩, k3⟩ := h.1.2 r hr
  have hx := tracked_mem k2 (fun y hy => by rw [hr] at hy; cases hy; simpa [List.contains_eq_mem] using k1) ht
  have := h.2 r hr x hx e (source_mem hs)
  simp only [Bool.or_eq_true, Bool.not_eq_true', List.isEmpty_eq_false_iff_exists_mem] at this
  refine this.resolve_left fun ⟨y, hy⟩ => hn ?_
  obtain ⟨j, hj⟩ := varOf_iff.1 hy
  exact ⟨j, y, hj⟩

/-- An assignment that is not part of another one, is outside of assignments. -/
theorem outside_of {m : Node} : ∀ {n : Node}, Within (fun _ => true) m n →
    (∀ id lhs rhs, Within (fun _ => true) (.assign id lhs rhs) n → ¬ WithinList (fun _ => true) m (lhs ++ rhs)) → Within outsideAssignments m n := by
  intro n h
  induction h with
  | self => exact fun _ => .self
  | @child n c _ hc hw ih =>
    intro hno
    refine .child ?_ hc (ih fun id lhs rhs hin => hno id lhs rhs (.child rfl hc hin))
    cases n with
    | assign id lhs rhs => exact absurd ⟨c, hc, hw⟩ (hno id lhs rhs .self)
    | _ => rfl

theorem surely_sound {x : ObjId} (h : surely env f body x = true) : ErrVar env f body x := by
  simp only [surely, List.any_eq_true, Bool.and_eq_true] at h
  obtain ⟨⟨id, rs⟩, hr, hov, h⟩ := h
  split at h
  · rename_i e he
    simp only [List.any_eq_true, Bool.and_eq_true, beq_iff_eq, bne_iff_ne, ne_eq, decide_eq_true_eq, Bool.not_eq_true', List.contains_eq_mem,
      decide_eq_false_iff_not] at h
    obtain ⟨i, hi, ⟨⟨⟨ho, hn⟩, h1⟩, h2⟩, h3⟩ := h
    refine ⟨e, i, .root ⟨id, rs, ⟨returns_of hr, fun a ha => ?_⟩, resultExpression_ok.1 he⟩, refs_iff.1 hi, ho, hn, .inr ⟨.inr ⟨x, ho, h1, h2⟩, ?_⟩⟩
    · rw [ha] at hov; simpa using hov
    · intro o ho' hl
      rw [ho] at ho'; cases ho'
      exact h3 (litParam_iff.2 hl)
  · cases h

theorem fieldType_sound {x : ObjId} {et : ErrorType}
    (h : ∀ j ∈ fieldTargets body, (j.obj != some x || fieldTypeOf env j == some et) = true) : Props.Fields.FieldType env body x et := by
  intro id lhs rhs hw sid i sel hl ho
  have hm : i ∈ fieldTargets body := by
    refine List.mem_flatMap.2 ⟨.assign id lhs rhs, mem_nodes.2 (Props.ErrorTypes.occurs_of_within hw), ?_⟩
    exact List.mem_filterMap.2 ⟨_, hl, rfl⟩
  have := h i hm
  simp only [ho, bne_self_eq_false, Bool.false_or, beq_iff_eq, fieldTypeOf] at this
  exact Option.bind_eq_some_iff.1 this

theorem call_sound {id : NodeId} {fn : Node} {args : List Node} (h : callsCheck env X body (.call id fn args) = true) :
    (X.conversion id = true → env.callee id = none ∧ (¬ ∃ g, Defined env fn g) ∧ (∀ x, FnVar env fn x → (env.object x).decl = .typeSpec) ∧
      typeAt env id = typeAt env fn.id ∧ ∀ et, typeAt env fn.id = some et → et.codes = [] ∨ et.field = none) ∧
    (X.conversion id = false → (∀ x, FnVar env fn x → (env.object x).decl ≠ .typeSpec) ∧
      (∀ g, Defined env fn g → (env.func g).declName.isSome = true → env.callee id = some (env.funcObj g)) ∧
      (env.callee id = none → extractErrorCodesFromTypeConversion env fn = [])) ∧
    (∀ i, fn.unparen = .ident i → okIdent i = true ∧ calledRoot env X body i = true) ∧
    (∀ q p, env.callee id = some q → env.facts.ctor q = some p → X.shift id = 0) := by
  simp only [callsCheck, callCheck, Bool.and_eq_true] at h
  obtain ⟨⟨⟨h1, h2⟩, h3⟩, h4⟩ := h
  refine ⟨fun hc => ?_, fun hc => ?_, fun i hi => ?_, fun q p hq hp => ?_⟩
  · rw [if_pos hc] at h2
    simp only [Bool.and_eq_true, Option.isNone_iff_eq_none, List.isEmpty_iff, List.all_eq_true, decide_eq_true_eq] at h2
    obtain ⟨⟨⟨⟨k1, k2⟩, k3⟩, k4⟩, k5⟩ := h2
    refine ⟨k1, fun ⟨g, hg⟩ => ?_, fun x hx => isTypeName_iff.1 (k3 x (fnVar_mem hx)), k4, fun et het => ?_⟩
    · have := defined_mem hg
      rw [k2] at this; cases this
    · rw [het] at k5
      simpa using k5
  · rw [if_neg (by simp [hc])] at h2
    simp only [Bool.and_eq_true, Bool.or_eq_true, Option.isNone_iff_eq_none, Option.isSome_iff_ne_none, List.isEmpty_iff, List.all_eq_true,
      Bool.not_eq_true', beq_iff_eq] at h2
    obtain ⟨⟨k1, k2⟩, k3⟩ := h2
    refine ⟨fun x hx ht => ?_, fun g hg hd => ?_, fun hn => k3.resolve_left fun h => h hn⟩
    · have := k1 x (fnVar_mem hx)
      rw [isTypeName_iff.2 ht] at this; cases this
    · rcases k2 g (defined_mem hg) with h | h
      · rw [h] at hd; cases hd
      · exact h
  · rw [hi] at h1 h3
    exact ⟨h1, h3⟩
  · rw [hq] at h4
    simpa [hp] using h4

theorem value_sound {e : Node} (h : functionValue env e = true) :
    (∀ j o, e.unparen = .ident j → j.obj = some o → ∃ g, (env.object o).decl = .funcDecl g) ∧
    (∀ g, Defined env e g → (env.func g).declName.isSome = true → Denotes env e = some (env.funcObj g)) := by
  simp only [functionValue, Bool.and_eq_true, List.all_eq_true, Bool.or_eq_true, Option.isNone_iff_eq_none, beq_iff_eq] at h
  refine ⟨fun j o hj ho => ?_, fun g hg hd => ?_⟩
  · have h1 := h.1
    simp only [hj, ho] at h1
    split at h1
    · rename_i g hg; exact ⟨g, hg⟩
    · cases h1
  · rcases h.2 g (defined_mem hg) with h | h
    · rw [h] at hd; cases hd
    · exact h

theorem zero_sound {x : ObjId} {et : ErrorType} (h : zeroCheck env f body x = true) (hz : ZeroValue env f body x et) : et.codes = [] := by
  obtain ⟨hz, i, o, hi, ho, ht, he⟩ := hz
  have hd : zeroDeclared env f body x = true := by
    simp only [zeroDeclared, Bool.or_eq_true, List.any_eq_true, beq_iff_eq]
    rcases hz with ⟨names, hz⟩ | ⟨fields, n, hf, hn, hx⟩ | ⟨d, id, y, t, hd, hu⟩
    · exact .inl (.inl (by simp [hz]))
    · exact .inl (.inr ⟨n, by simpa [resultNames, hf] using hn, hx⟩)
    · exact .inr ⟨_, split_mem hd, by rw [hu]; rfl⟩
  simp only [zeroCheck, hd, Bool.not_true, Bool.false_or, List.all_eq_true, Bool.or_eq_true, bne_iff_ne, ne_eq, List.isEmpty_iff] at h
  have hm : i ∈ idents body ++ resultNames env f := by
    rcases hi with hi | ⟨fields, hf, hi⟩
    · exact List.mem_append_left _ (List.mem_filterMap.2 ⟨_, mem_nodes.2 hi, rfl⟩)
    · exact List.mem_append_right _ (by simpa [resultNames, hf] using hi)
  have := (h i hm).resolve_left fun h => h ho
  simpa [codesOf, ht, he] using this

theorem store_sound (h : ∀ n ∈ nodes body, storeCheck env X f body n = true) {id : NodeId} {lhs rhs : List Node} {k : Nat} {l : Node} {sid y sel et}
    (ho : Occurs (.assign id lhs rhs) body) (hl : lhs[k]? = some l) (hu : l.unparen = .selector sid y sel) (hc : X.codeField sid = some et) :
    WithinList outsideAssignments (.assign id lhs rhs) body ∧ X.op id = false ∧
    ∃ i x fd, l = .selector sid (.ident i) sel ∧ i.obj = some x ∧ ErrVar env f body x ∧
      Props.Fields.FieldType env body x et ∧ et.field = some fd ∧ sel.name = fd.name := by
  have hs : storesTo X l = some et := by simp [storesTo, hu, hc]
  refine ⟨?_, ?_⟩
  · obtain ⟨n, hn, hw⟩ := ho
    refine ⟨n, hn, outside_of hw fun id' lhs' rhs' hin hin' => ?_⟩
    have := h _ (mem_nodes.2 ⟨n, hn, hin⟩)
    simp only [storeCheck, Bool.and_eq_true, List.all_eq_true] at this
    have := this.2 _ ((mem_inspectList _ _ _).2 hin')
    have hst : isStore X (.assign id lhs rhs) = true := by
      simp only [isStore, List.any_eq_true]
      exact ⟨l, List.mem_of_getElem? hl, by rw [hs]; rfl⟩
    rw [hst] at this; cases this
  · have := h _ (mem_nodes.2 ho)
    simp only [storeCheck, Bool.and_eq_true, List.all_eq_true, Option.mem_toList] at this
    obtain ⟨hop, ht⟩ := this.1.2 l (List.mem_of_getElem? hl) et hs
    refine ⟨by simpa using hop, ?_⟩
    unfold storeTarget at ht
    split at ht
    · rename_i sid' i sel'
      cases hu
      simp only [Bool.and_eq_true, List.all_eq_true, Option.mem_toList, beq_iff_eq, Option.isSome_iff_exists] at ht
      obtain ⟨⟨⟨⟨x, hx⟩, h1⟩, fd, hfd⟩, h3⟩ := ht
      obtain ⟨k1, k2⟩ := h1 x hx
      exact ⟨i, x, fd, rfl, hx, surely_sound k1, fieldType_sound k2, hfd, h3 fd hfd⟩
    · cases ht

/-- **The check is sound**: it decides a sufficient condition for the scope of C24. -/
theorem inScope_sound (hbody : (env.func f).body = some body) (h : inScope env X f body = true) : Props.Soundness.InScope env X f := by
  simp only [inScope, Bool.and_eq_true, List.all_eq_true] at h
  obtain ⟨⟨⟨⟨⟨⟨⟨⟨⟨h1, h2⟩, h3⟩, h4⟩, h5⟩, h6⟩, h7⟩, h8⟩, h9⟩, h10⟩ := h
  have hv : VarsOk env f body := by
    simp only [fine, shape, Bool.and_eq_true] at h1
    obtain ⟨⟨⟨⟨⟨⟨⟨⟨⟨⟨⟨-, -⟩, -⟩, -⟩, k5⟩, k6⟩, -⟩, -⟩, -⟩, -⟩, -⟩, -⟩ := h1
    refine ⟨?_, k6⟩
    simpa [List.all_eq_true, List.contains_eq_mem] using k5
  have hsrc : ∀ {x e}, Source env body x e → sourceCheck env e = true := fun hs => h4 _ (source_all hs)
  have hexpr : ∀ {e}, ErrExpr env f body e → exprCheck env e = true := fun he => h3 _ (errExpr_mem hv he).1
  have hcall : ∀ {id fn args}, ErrCall env f body id fn args → callsCheck env X body (.call id fn args) = true := fun hc => h5 _ (errCall_mem hv hc)
  have hparam : ∀ {p i}, importErrorConstructorFact env f = some p → (paramNames (env.func f).type.params)[p]? = some i →
      i.name ≠ b!"nil" ∧ rootCheck env X body i = true := by
    intro p i hp hi
    simp only [codeParamCheck, hp, hi, Bool.and_eq_true, bne_iff_ne, ne_eq] at h10
    exact h10.2
  refine ⟨body, (fine_sound hbody h1).1, separate_sound h2, ⟨?_, ?_, ?_, ?_, ?_, ?_, ?_, ?_, ?_, ?_, ?_, ?_, ?_⟩,
    ⟨?_, ?_, ?_, ?_, ?_, ?_, ?_, ?_, ?_, ?_, ?_, ?_⟩⟩
  · intro x e j y hs hu
    have := hsrc hs
    simp only [sourceCheck, hu.1, Bool.and_eq_true] at this
    exact okIdent_sound this.2.1 hu.2.1
  · intro e i x he hr ho
    have := hexpr he
    simp only [exprCheck, Bool.and_eq_true, List.all_eq_true] at this
    exact okIdent_sound (this.1 i (refs_iff.2 hr)) ho
  · exact fun p i hp hi => (hparam hp hi).1
  · exact fun id fn args i x hc hu ho => okIdent_sound ((call_sound (hcall hc)).2.2.1 i hu).1 ho
  · intro e id y sel he hu
    have := hexpr he
    simp only [exprCheck, hu, Bool.and_eq_true, Option.isNone_iff_eq_none, bne_iff_ne, ne_eq] at this
    exact this.2
  · intro x e j y hs hu s hval
    have := hsrc hs
    simp only [sourceCheck, hu.1, Bool.and_eq_true, Bool.or_eq_true, List.isEmpty_iff] at this
    rcases this.2.2 with h | h
    · have hy := varOf_iff.2 ⟨j, hu⟩
      rw [h] at hy; cases hy
    · simp [hval, isText] at h
  · intro x e hs
    have := hsrc hs
    simp only [sourceCheck, Bool.and_eq_true, decide_eq_true_eq] at this
    exact this.1
  · intro hp g hg hn
    obtain ⟨p, hp⟩ := Option.ne_none_iff_exists'.1 hp
    simp only [codeParamCheck, hp, Bool.and_eq_true, List.all_eq_true] at h10
    have := h10.1 g hg
    simp [hn] at this
  · intro e id elts et fd he hu _ _
    have := hexpr he
    rcases hu with hu | ⟨y, cid, hu, hy⟩
    · simp only [exprCheck, hu, Bool.and_eq_true] at this
      exact lit_sound this.2
    · simp only [exprCheck, hu, hy, Bool.and_eq_true] at this
      exact lit_sound this.2.1
  · intro e id y id' y' he hu hy
    have := hexpr he
    simp [exprCheck, hu, hy, notAnd] at this
  · intro id fn args hc hconv
    obtain ⟨k1, k2, k3, k4, -⟩ := (call_sound (hcall hc)).1 hconv
    exact ⟨k1, k2, k3, k4⟩
  · intro id fn args hc hconv
    obtain ⟨k1, k2, -⟩ := (call_sound (hcall hc)).2.1 hconv
    exact ⟨k1, k2⟩
  · intro id fn args i x e hc hu ht hs hn
    exact value_sound (called_sound ((call_sound (hcall hc)).2.2.1 i hu).2 ht hs hn)
  · exact fun x hx => not_wild (h6 x (errVar_mem hv hx))
  · exact fun x et hx hz => zero_sound (h7 x (errVar_mem hv hx)) hz
  · exact fun id lhs rhs k l sid y sel et ho hl hu hc => store_sound h8 ho hl hu hc
  · rintro ⟨id, lhs, rhs, l, ho, hl, hd⟩
    have := h8 _ (mem_nodes.2 ho)
    simp only [storeCheck, Bool.and_eq_true, List.all_eq_true] at this
    have := this.1.1 l hl
    rw [hd] at this; cases this
  · simpa using h9
  · exact fun id fn args et hc hconv het => ((call_sound (hcall hc)).1 hconv).2.2.2.2 et het
  · exact fun id fn args hc hconv hn => ((call_sound (hcall hc)).2.1 hconv).2.2 hn
  · exact fun id fn args q p hc hq hp => (call_sound (hcall hc)).2.2.2 q p hq hp
  · intro id fn args i x hc hu ht
    have := ((call_sound (hcall hc)).2.2.1 i hu).2
    simp only [calledRoot, Bool.and_eq_true] at this
    exact (root_sound this.1).2 _ x ht
  · intro id fn args i x hc hu _
    have := ((call_sound (hcall hc)).2.2.1 i hu).2
    simp only [calledRoot, Bool.and_eq_true] at this
    exact (root_sound (f := f) this.1).1
  · exact fun p i x hp hi ht => (root_sound (hparam hp hi).2).2 _ x ht
  · exact fun p i hp hi => (root_sound (f := f) (hparam hp hi).2).1

end Serum.Check
