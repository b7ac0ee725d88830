import Verif.BodyReports
import Verif.Props.Crash

/-!
# Deciding the hypotheses about function bodies

`fine` decides, by evaluation, a sufficient condition for `Regular`, `Checked` and `Typed`.
-/

namespace Serum.Check
open Serum Flow Taint Analyse

variable (env : Env) (f : FnId) (body : List Node)

/-- All nodes of the body. -/
def nodes : List Node := Node.inspectList (fun _ => true) body

/-- The variable that is used, if the expression is the use of a variable. -/
def varOf (e : Node) : List ObjId :=
  match e.unparen with
  | .ident i => match i.obj with
    | some y => if (env.object y).kind = .var then [y] else []
    | none => []
  | _ => []

/-- The values in the declaration of an object. -/
def initials (x : ObjId) : List Node :=
  match (env.object x).decl with
  | .valueSpec _ values => values
  | _ => []

def add (acc : List ObjId) (x : ObjId) : List ObjId := if acc.contains x then acc else x :: acc

/-- What is reached in a number of steps. -/
def closure (next : ObjId → List ObjId) : Nat → List ObjId → List ObjId
  | 0, l => l
  | n + 1, l => closure next n (l.foldl (fun acc x => (next x).foldl add acc) l)

/-- Nothing more is reached. -/
def closed (next : ObjId → List ObjId) (l : List ObjId) : Bool := l.all fun x => (next x).all l.contains

def litParamsOf : Node → List ObjId
  | .funcLit _ _ type _ => (type.params.flatMap Field.names).filterMap Ident.obj
  | _ => []

/-- The parameters of function literals. -/
def litParams : List ObjId := (nodes body).flatMap litParamsOf

/-- `x` and what its initial values lead to. -/
def chain (x : ObjId) : List ObjId := closure (fun y => (initials env y).flatMap (varOf env)) 8 [x]

/-- The initial value does not lead to a parameter of a function literal other than `known`. -/
def cleanBut (lits known : List ObjId) (x : ObjId) : Bool :=
  lits.isEmpty || ((chain env x).contains x && closed (fun y => (initials env y).flatMap (varOf env)) (chain env x) &&
    (chain env x).all fun p => !lits.contains p || known.contains p)

def beforeNode (lits acc : List ObjId) : Node → Bool
  | .assign _ _ rhs => rhs.all fun r => (varOf env r).all (cleanBut env lits acc)
  | _ => true

def before (lits : List ObjId) : List ObjId → List Node → Bool
  | _, [] => true
  | acc, n :: ns => beforeNode env lits acc n && before lits (acc ++ litParamsOf n) ns

/-- The identifiers whose value an expression hands on. -/
def refs (e : Node) : List Ident :=
  match e.unparen with
  | .ident i => [i]
  | .unary id true x => if env.implError (env.typeOf id) then (match x.unparen with | .ident i => [i] | _ => []) else []
  | .selector _ _ i => [i]
  | _ => []

/-- The result expressions. -/
def results : List Node :=
  (Node.inspectList ofFunction body).filterMap fun n => match n with
    | .ret _ rs => (resultExpression (env.func f).type rs).toOption
    | _ => none

def target (x : ObjId) (l : Node) : Bool := match l.unparen with | .ident t => t.obj == some x | _ => false

/-- What is assigned to a variable by an assignment of one value each. -/
def assignedOf (x : ObjId) : Node → List Node
  | .assign _ lhs rhs => if lhs.length = rhs.length then (lhs.zip rhs).filterMap fun p => if target x p.1 then some p.2 else none else []
  | _ => []

/-- What is assigned to a variable by an assignment of several values at once. -/
def splitOf (x : ObjId) : Node → List Node
  | .assign _ lhs rhs => if lhs.length ≠ rhs.length ∧ lhs.any (target x) = true then rhs.take 1 else []
  | _ => []

def sources (x : ObjId) : List Node := initials env x ++ (nodes body).flatMap (assignedOf x)
def splits (x : ObjId) : List Node := initials env x ++ (nodes body).flatMap (splitOf x)

/-- The operands of type assertions. -/
def asserted (es : List Node) : List Node := es.filterMap fun e => match e.unparen with | .typeAssert _ y _ => some y | _ => none

def objsOf (es : List Node) : List ObjId := (es.flatMap (refs env)).filterMap Ident.obj

/-- The variables that may flow into a variable. -/
def flows (x : ObjId) : List ObjId := objsOf env (sources env body x ++ asserted (splits env body x))

/-- The variables that may be returned. -/
def errVars : List ObjId := closure (flows env body) 16 (objsOf env (results env f body))

/-- Calls whose results may be returned. -/
def errCalls : List Node :=
  (results env f body ++ (errVars env f body).flatMap fun x => sources env body x ++ asserted (splits env body x) ++ splits env body x).map Node.unparen

def resolved (sid : NodeId) (x : Node) : Bool :=
  (match x.unparen with | .ident t => (env.pkgName t.id).isSome | _ => false) || (env.selection sid).isSome

def cleanIdent (i : Ident) : Bool := match i.obj with | some x => cleanBut env (litParams body) [] x | none => true

/-- Lexical scoping. -/
def scopeCheck : Bool :=
  before env (litParams body) [] (nodes body) &&
  ((results env f body).flatMap (refs env)).all (cleanIdent env body) &&
  (errVars env f body).all fun x => ((sources env body x).filter (fun e => (varOf env e).isEmpty) ++ asserted (splits env body x)).all
    fun e => (refs env e).all (cleanIdent env body)

def parsedNode : Node → Bool
  | .funcLit _ _ type _ => (type.params.flatMap Field.names).all (·.obj.isSome)
  | .assign _ lhs rhs => lhs.isEmpty || !rhs.isEmpty
  | _ => true

def constInitial (e : Node) : Bool := match e.unparen with | .ident i => i.obj.isNone | _ => true

/-- The objects declared with values. -/
def constObject (x : ObjId) : Bool := decide ((env.object x).kind = .var) || (initials env x).all constInitial

def varTarget (l : Node) : Bool :=
  match l.unparen with
  | .ident t => (match t.obj with | some o => decide ((env.object o).kind = .var) | none => true)
  | _ => true

def assignsVars : Node → Bool
  | .assign _ lhs _ => lhs.all (varTarget env)
  | _ => true

/-- The error code parameter. -/
def paramCheck : Bool :=
  match importErrorConstructorFact env f with
  | some position => (match getParamIdent (env.func f).type position with
    | some i => cleanIdent env body i
    | none => false)
  | none => true

/-- A name for something other than a variable is a function or a type. -/
def functionName (e : Node) : Bool :=
  match e.unparen with
  | .ident j => (match j.obj with
    | some o => decide ((env.object o).kind = .var) || (match (env.object o).decl with | .funcDecl _ => true | .typeSpec => true | _ => false)
    | none => true)
  | _ => true

/-- A called variable. -/
def calledIdent (i : Ident) : Bool :=
  cleanIdent env body i && i.obj.toList.all fun o =>
    (closure (flows env body) 16 [o]).contains o && closed (flows env body) (closure (flows env body) 16 [o]) &&
    (closure (flows env body) 16 [o]).all fun x => (sources env body x).all (functionName env)

def calledCheck (n : Node) : Bool :=
  match n with
  | .call _ fn _ => (match fn.unparen with
    | .selector sid x _ => resolved env sid x
    | .ident i => calledIdent env body i
    | _ => true)
  | _ => true

def selectorCheck (r : Node) : Bool := match r.unparen with | .selector sid x _ => resolved env sid x | _ => true

def assignsSelectors : Node → Bool
  | .assign _ _ rhs => rhs.all (selectorCheck env)
  | _ => true

def bareCheck : Node → Bool
  | .ret _ [] => (resultExpression (env.func f).type []).toOption.isSome
  | _ => true

def fieldTargets : List Ident :=
  (nodes body).flatMap fun n => match n with
    | .assign _ lhs _ => lhs.filterMap fun l => match l with | .selector _ (.ident i) _ => some i | _ => none
    | _ => []

/-- The part of the condition that does not depend on facts. -/
def shape : Bool :=
  scopeCheck env f body && (nodes body).all parsedNode && (List.range env.objects.length).all (constObject env) &&
  (nodes body).all (assignsVars env) && (objsOf env (results env f body)).all (errVars env f body).contains &&
  closed (flows env body) (errVars env f body) && (errCalls env f body).all (calledCheck env body) &&
  (nodes body).all (assignsSelectors env) && ((List.range env.objects.length).all fun x => (initials env x).all (selectorCheck env)) &&
  (Node.inspectList ofFunction body).all (bareCheck env f) &&
  (fieldTargets body).all fun i => (fieldTargets body).all fun j => i.obj != j.obj || decide (env.typeOf i.id = env.typeOf j.id)

/-- The whole condition. -/
def fine : Bool := shape env f body && paramCheck env f body

/-! ## What it means -/

variable {env f body}

theorem mem_nodes {n : Node} : n ∈ nodes body ↔ Occurs n body := mem_inspectList _ _ _

theorem closed_sound {next : ObjId → List ObjId} {l : List ObjId} (h : closed next l = true) {x y : ObjId} (hx : x ∈ l) (hy : y ∈ next x) :
    y ∈ l := by
  simp only [closed, List.all_eq_true, List.contains_eq_mem, decide_eq_true_eq] at h
  exact h x hx y hy

theorem varOf_iff {e : Node} {y : ObjId} : y ∈ varOf env e ↔ ∃ i, VarUse env e i y := by
  unfold varOf VarUse
  constructor
  · intro h
    split at h
    · rename_i i hi
      split at h
      · rename_i z hz
        split at h
        · rename_i hk; rw [List.mem_singleton] at h; subst h; exact ⟨i, hi, hz, hk⟩
        · cases h
      · cases h
    · cases h
  · rintro ⟨i, h1, h2, h3⟩
    simp [h1, h2, h3]

theorem initials_of {x : ObjId} {names : List Ident} {values : List Node} (h : (env.object x).decl = .valueSpec names values) :
    initials env x = values := by
  unfold initials; rw [h]

theorem initialised_mem {x : ObjId} {e : Node} (h : InitialisedBy env x e) : e ∈ initials env x := by
  obtain ⟨pre, n, post, values, hd, -, -, -, hk⟩ := h
  rw [initials_of hd]; exact List.mem_of_getElem? hk

theorem chain_sound {x p : ObjId} {c : List ObjId} (hc : closed (fun y => (initials env y).flatMap (varOf env)) c = true) (hx : x ∈ c)
    (h : InitChain env x p) : p ∈ c := by
  induction h with
  | refl => exact hx
  | step h1 h2 _ ih => exact ih (closed_sound hc hx (List.mem_flatMap.2 ⟨_, initialised_mem h1, varOf_iff.2 ⟨_, h2⟩⟩))

theorem litParamsOf_mem {id : NodeId} {fn : FnId} {type : FuncType} {b : List Node} {p : ObjId} :
    p ∈ litParamsOf (.funcLit id fn type b) ↔ ∃ n ∈ type.params.flatMap Field.names, n.obj = some p := by
  simp only [litParamsOf, List.mem_filterMap]

theorem litParam_iff {p : ObjId} : p ∈ litParams body ↔ LitParam body p := by
  unfold litParams LitParam
  rw [List.mem_flatMap]
  constructor
  · rintro ⟨n, hn, hp⟩
    cases n with
    | funcLit id fn type b => exact ⟨id, fn, type, b, mem_nodes.1 hn, List.mem_filterMap.1 hp⟩
    | _ => simp [litParamsOf] at hp
  · rintro ⟨id, fn, type, b, ho, hp⟩
    exact ⟨_, mem_nodes.2 ho, litParamsOf_mem.2 hp⟩

theorem cleanBut_sound {lits known : List ObjId} {x p : ObjId} (h : cleanBut env lits known x = true) (hc : InitChain env x p)
    (hl : p ∈ lits) : p ∈ known := by
  simp only [cleanBut, Bool.or_eq_true, Bool.and_eq_true, List.isEmpty_iff, List.contains_eq_mem, decide_eq_true_eq, List.all_eq_true,
    Bool.not_eq_true', decide_eq_false_iff_not] at h
  rcases h with h | ⟨⟨h1, h2⟩, h3⟩
  · rw [h] at hl; cases hl
  · exact (h3 p (chain_sound h2 h1 hc)).resolve_left fun h => h hl

theorem cleanIdent_sound {i : Ident} (h : cleanIdent env body i = true) : CleanRoot env body i := by
  intro x p hx hc hl
  simp only [cleanIdent, hx] at h
  cases cleanBut_sound h hc (litParam_iff.2 hl)

theorem before_sound {lits : List ObjId} : ∀ {ns : List Node} {acc : List ObjId}, before env lits acc ns = true →
    ∀ pre id lhs rhs post, ns = pre ++ .assign id lhs rhs :: post → ∀ r ∈ rhs, ∀ y ∈ varOf env r, ∀ p, InitChain env y p → p ∈ lits →
      p ∈ acc ++ pre.flatMap litParamsOf
  | [], _, _, pre, _, _, _, _, h => by simp at h
  | n :: ns, acc, hb, pre, id, lhs, rhs, post, h => by
    rw [before, Bool.and_eq_true] at hb
    intro r hr y hy p hc hl
    cases pre with
    | nil =>
      simp only [List.nil_append, List.cons.injEq] at h
      obtain ⟨rfl, rfl⟩ := h
      have h1 := hb.1
      simp only [beforeNode, List.all_eq_true] at h1
      simpa using cleanBut_sound (h1 r hr y hy) hc hl
    | cons m pre =>
      simp only [List.cons_append, List.cons.injEq] at h
      obtain ⟨rfl, h⟩ := h
      have := before_sound hb.2 pre id lhs rhs post h r hr y hy p hc hl
      simpa [List.append_assoc] using this

theorem litsBefore_sound (h : before env (litParams body) [] (nodes body) = true) : LitsBeforeUses env body := by
  intro pre id lhs rhs post heq r hr i y p hv hc hl
  have := before_sound h pre id lhs rhs post heq r hr y (varOf_iff.2 ⟨i, hv⟩) p hc (litParam_iff.2 hl)
  simp only [List.nil_append, List.mem_flatMap] at this
  obtain ⟨n, hn, hp⟩ := this
  cases n with
  | funcLit lid fn type b => exact ⟨lid, fn, type, b, hn, litParamsOf_mem.1 hp⟩
  | _ => simp [litParamsOf] at hp

theorem refs_iff {e : Node} {i : Ident} : i ∈ refs env e ↔ RefersTo env e i := by
  unfold refs RefersTo
  constructor
  · intro h
    split at h
    · rename_i j hj; rw [List.mem_singleton] at h; subst h; exact .inl hj
    · rename_i id x hx
      split at h
      · rename_i hi
        split at h
        · rename_i j hj; rw [List.mem_singleton] at h; subst h; exact .inr (.inl ⟨id, x, hx, hi, hj⟩)
        · cases h
      · cases h
    · rename_i id x j hj; rw [List.mem_singleton] at h; subst h; exact .inr (.inr ⟨_, _, hj⟩)
    · cases h
  · rintro (h | ⟨id, x, h1, h2, h3⟩ | ⟨id, x, h⟩)
    · simp [h]
    · simp [h1, h2, h3]
    · simp [h]

theorem results_mem {e : Node} (h : AnyResult env f body e) : e ∈ results env f body := by
  obtain ⟨id, rs, ⟨hw, -⟩, hr⟩ := h
  refine List.mem_filterMap.2 ⟨.ret id rs, (mem_inspectList _ _ _).2 hw, ?_⟩
  show (resultExpression (env.func f).type rs).toOption = some e
  rw [resultExpression_ok.2 hr]; rfl

theorem target_of {x : ObjId} {l : Node} {t : Ident} (h : l.unparen = .ident t) (ho : t.obj = some x) : target x l = true := by
  simp [target, h, ho]

theorem source_mem {x : ObjId} {e : Node} (h : Source env body x e) : e ∈ sources env body x := by
  rcases h with h | ⟨id, lhs, rhs, ho, hlen, k, l, t, h1, h2, h3, h4⟩
  · exact List.mem_append_left _ (initialised_mem h)
  · refine List.mem_append_right _ (List.mem_flatMap.2 ⟨_, mem_nodes.2 ho, ?_⟩)
    simp only [assignedOf, if_pos hlen]
    refine List.mem_filterMap.2 ⟨(l, e), ?_, by simp [target_of h2 h3]⟩
    refine List.mem_of_getElem? (i := k) ?_
    rw [List.getElem?_zip_eq_some]
    exact ⟨h1, h4⟩

theorem split_mem {x : ObjId} {d : Destruct} (h : Destructured env body x d) : d.source ∈ splits env body x := by
  rcases h with ⟨pre, post, values, hd, -, -, -, -, hh⟩ | ⟨id, lhs, rhs, ho, hlen, l, h1, h2, h3, h4⟩
  · refine List.mem_append_left _ ?_
    rw [initials_of hd]; exact List.mem_of_mem_head? hh
  · refine List.mem_append_right _ (List.mem_flatMap.2 ⟨_, mem_nodes.2 ho, ?_⟩)
    have : lhs.any (target x) = true := List.any_eq_true.2 ⟨l, List.mem_of_getElem? h1, target_of h2 h3⟩
    simp only [splitOf, if_pos (⟨hlen, this⟩ : lhs.length ≠ rhs.length ∧ _)]
    cases rhs with
    | nil => cases h4
    | cons r rs => simp only [List.head?_cons, Option.some.injEq] at h4; simp [h4]

theorem asserted_mem {es : List Node} {e y : Node} {id : NodeId} {t : Option NodeId} (he : e ∈ es) (hu : e.unparen = .typeAssert id y t) :
    y ∈ asserted es := List.mem_filterMap.2 ⟨e, he, by rw [hu]⟩

theorem objsOf_mem {es : List Node} {e : Node} {i : Ident} {x : ObjId} (he : e ∈ es) (hr : RefersTo env e i) (ho : i.obj = some x) :
    x ∈ objsOf env es := List.mem_filterMap.2 ⟨i, List.mem_flatMap.2 ⟨e, he, refs_iff.2 hr⟩, ho⟩

/-- What is checked about error variables. -/
structure VarsOk (env : Env) (f : FnId) (body : List Node) : Prop where
  roots : ∀ x ∈ objsOf env (results env f body), x ∈ errVars env f body
  closed : closed (flows env body) (errVars env f body) = true

/-- The error expressions. -/
def errExprs (env : Env) (f : FnId) (body : List Node) : List Node :=
  results env f body ++ (errVars env f body).flatMap fun x => sources env body x ++ asserted (splits env body x)

theorem errExpr_mem (h : VarsOk env f body) {e : Node} (he : ErrExpr env f body e) :
    e ∈ errExprs env f body ∧ ∀ i x, RefersTo env e i → i.obj = some x → x ∈ errVars env f body := by
  induction he with
  | root hr => exact ⟨List.mem_append_left _ (results_mem hr), fun i x hi ho => h.roots x (objsOf_mem (results_mem hr) hi ho)⟩
  | @assigned _ _ x _ _ hv hs ih =>
    have hx := ih.2 _ _ hv.1 hv.2.1
    have hm := List.mem_append_left (asserted (splits env body x)) (source_mem hs)
    exact ⟨List.mem_append_right _ (List.mem_flatMap.2 ⟨_, hx, hm⟩), fun i x hi ho => closed_sound h.closed hx (objsOf_mem hm hi ho)⟩
  | @asserted _ _ x _ _ _ _ _ hv hd hu ih =>
    have hx := ih.2 _ _ hv.1 hv.2.1
    have hm := List.mem_append_right (sources env body x) (asserted_mem (split_mem hd) hu)
    exact ⟨List.mem_append_right _ (List.mem_flatMap.2 ⟨_, hx, hm⟩), fun i x hi ho => closed_sound h.closed hx (objsOf_mem hm hi ho)⟩

theorem errVar_mem (h : VarsOk env f body) {x : ObjId} (hx : ErrVar env f body x) : x ∈ errVars env f body := by
  obtain ⟨e, i, he, hv⟩ := hx
  exact (errExpr_mem h he).2 i x hv.1 hv.2.1

theorem errCall_mem (h : VarsOk env f body) {id : NodeId} {fn : Node} {args : List Node} (hc : Props.Calls.ErrCall env f body id fn args) :
    .call id fn args ∈ errCalls env f body := by
  unfold errCalls
  cases hc with
  | expr he hu =>
    refine List.mem_map.2 ⟨_, ?_, hu⟩
    have := (errExpr_mem h he).1
    unfold errExprs at this
    rcases List.mem_append.1 this with hm | hm
    · exact List.mem_append_left _ hm
    · obtain ⟨x, hx, hm⟩ := List.mem_flatMap.1 hm
      exact List.mem_append_right _ (List.mem_flatMap.2 ⟨x, hx, List.mem_append_left _ hm⟩)
  | last hx hd hu _ _ =>
    exact List.mem_map.2 ⟨_, List.mem_append_right _ (List.mem_flatMap.2 ⟨_, errVar_mem h hx, List.mem_append_right _ (split_mem hd)⟩), hu⟩

theorem scope_sound (h : VarsOk env f body) (hs : scopeCheck env f body = true) : ScopeOk env f body := by
  simp only [scopeCheck, Bool.and_eq_true, List.all_eq_true] at hs
  obtain ⟨⟨h1, h2⟩, h3⟩ := hs
  refine ⟨litsBefore_sound h1, fun e i he hi => cleanIdent_sound ?_⟩
  cases he with
  | root hr => exact h2 i (List.mem_flatMap.2 ⟨e, results_mem hr, refs_iff.2 hi⟩)
  | assigned he' hv hsrc hn =>
    refine h3 _ ((errExpr_mem h he').2 _ _ hv.1 hv.2.1) e (List.mem_append_left _ (List.mem_filter.2 ⟨source_mem hsrc, ?_⟩)) i (refs_iff.2 hi)
    rw [List.isEmpty_iff, List.eq_nil_iff_forall_not_mem]
    intro y hy
    obtain ⟨j, hj⟩ := varOf_iff.1 hy
    exact hn ⟨j, y, hj⟩
  | asserted he' hv hd hu =>
    exact h3 _ ((errExpr_mem h he').2 _ _ hv.1 hv.2.1) e (List.mem_append_right _ (asserted_mem (split_mem hd) hu)) i (refs_iff.2 hi)

theorem parsed_sound (h : ∀ n ∈ nodes body, parsedNode n = true) : BodyOk body where
  params := fun id fn type b ho n hn hno => by
    have := h _ (mem_nodes.2 ho)
    simp only [parsedNode, List.all_eq_true] at this
    have := this n hn
    rw [hno] at this; cases this
  assigns := fun id lhs rhs ho hne hnil => by
    have := h _ (mem_nodes.2 ho)
    subst hnil
    simp only [parsedNode, Bool.or_eq_true, List.isEmpty_iff, List.isEmpty_nil, Bool.not_true, Bool.false_eq_true, or_false] at this
    exact hne this

theorem consts_sound (h : ∀ x < env.objects.length, constObject env x = true) (hv : ∀ n ∈ nodes body, assignsVars env n = true) :
    ConstOk env body := by
  refine ⟨fun _ => 0, fun _ => Nat.zero_le _, fun x e i o hk hs hu ho => ?_⟩
  exfalso
  rcases hs with hs | ⟨id, lhs, rhs, hocc, -, k, l, t, h1, h2, h3, -⟩
  · by_cases hx : x < env.objects.length
    · have := h x hx
      simp only [constObject, Bool.or_eq_true, decide_eq_true_eq, hk, false_or, List.all_eq_true] at this
      have := this e (initialised_mem hs)
      simp [constInitial, hu, ho] at this
    · obtain ⟨_, _, _, _, hd, -⟩ := hs
      simp [Env.object, List.getD, List.getElem?_eq_none (Nat.le_of_not_lt hx)] at hd
  · have := hv _ (mem_nodes.2 hocc)
    simp only [assignsVars, List.all_eq_true] at this
    have := this l (List.mem_of_getElem? h1)
    simp [varTarget, h2, h3] at this
    exact hk this

theorem resolved_sound {sid : NodeId} {x : Node} (h : resolved env sid x = true) : Resolved env sid x := by
  unfold resolved at h
  simp only [Bool.or_eq_true] at h
  rcases h with h | h
  · split at h
    · rename_i t ht
      obtain ⟨p, hp⟩ := Option.isSome_iff_exists.1 h
      exact .inl ⟨t, p, ht, hp⟩
    · cases h
  · exact .inr (by rw [← Option.isSome_iff_ne_none]; exact h)

theorem tracked_mem {w : List ObjId} (hc : closed (flows env body) w = true) {i : Ident} (hi : ∀ x, i.obj = some x → x ∈ w) {x : ObjId}
    {param : Option ObjId} (h : Tracked env (env.func f) body param [] i x) : x ∈ w := by
  induction h with
  | start ho _ _ _ => exact hi _ ho
  | step _ hs hv _ _ _ ih =>
    exact closed_sound hc ih (objsOf_mem (List.mem_append_left _ (source_mem hs)) (.inl hv.1) hv.2.1)

/-- **The check is sound**: it decides what parser, type checker and scoping guarantee. -/
theorem fine_sound (hbody : (env.func f).body = some body) (h : fine env f body = true) :
    Regular env f body ∧ Checked env f body ∧ BodyReports.Typed env f body := by
  simp only [fine, shape, Bool.and_eq_true] at h
  obtain ⟨⟨⟨⟨⟨⟨⟨⟨⟨⟨⟨h1, h2⟩, h3⟩, h4⟩, h5⟩, h6⟩, h7⟩, h8⟩, h9⟩, h10⟩, h11⟩, h12⟩ := h
  simp only [List.all_eq_true, List.contains_eq_mem, decide_eq_true_eq, List.mem_range] at h2 h3 h4 h5 h7 h8 h9 h10 h11
  have hv : VarsOk env f body := ⟨h5, h6⟩
  refine ⟨⟨hbody, scope_sound hv h1, parsed_sound h2, consts_sound h3 h4, fun position hp => ?_⟩, ⟨?_, ?_, ?_⟩, ⟨?_, ?_, ?_, ?_⟩⟩
  · unfold paramCheck at h12
    rw [hp] at h12
    intro hn
    simp [hn] at h12
  · intro id fn args sid x sel hc hu
    have := h7 _ (errCall_mem hv hc)
    simp only [calledCheck, hu] at this
    exact resolved_sound this
  · intro v e sid x sel hs hu
    rcases hs with hs | ⟨id, lhs, rhs, hocc, -, k, l, t, -, -, -, hk⟩
    · by_cases hx : v < env.objects.length
      · have := h9 v hx e (initialised_mem hs)
        simp only [selectorCheck, hu] at this
        exact resolved_sound this
      · obtain ⟨_, _, _, _, hd, -⟩ := hs
        simp [Env.object, List.getD, List.getElem?_eq_none (Nat.le_of_not_lt hx)] at hd
    · have := h8 _ (mem_nodes.2 hocc)
      simp only [assignsSelectors, List.all_eq_true] at this
      have := this e (List.mem_of_getElem? hk)
      simp only [selectorCheck, hu] at this
      exact resolved_sound this
  · intro id hr
    have := h10 _ ((mem_inspectList _ _ _).2 hr.1)
    simp only [bareCheck] at this
    cases he : resultExpression (env.func f).type [] with
    | error _ => rw [he] at this; cases this
    | ok e =>
      rcases resultExpression_ok.1 he with h | ⟨-, fields, field, i, k1, k2, k3, -⟩
      · cases h
      · exact ⟨fields, field, i, k1, k2, k3⟩
  · intro id fn args i hc hu
    have := h7 _ (errCall_mem hv hc)
    simp only [calledCheck, hu, calledIdent, Bool.and_eq_true] at this
    exact cleanIdent_sound this.1
  · rintro id fn args i e j o hc hu ⟨x, ht, hs, hn⟩ hj ho
    have := h7 _ (errCall_mem hv hc)
    simp only [calledCheck, hu, calledIdent, Bool.and_eq_true, List.all_eq_true, List.contains_eq_mem, decide_eq_true_eq, Option.mem_toList] at this
    have hex : ∃ r, i.obj = some r := by
      clear hs hn
      induction ht with
      | start ho _ _ _ => exact ⟨_, ho⟩
      | step _ _ _ _ _ _ ih => exact ih
    obtain ⟨r, hr⟩ := hex
    obtain ⟨⟨k1, k2⟩, k3⟩ := this.2 r hr
    have hx := tracked_mem k2 (fun y hy => by rw [hr] at hy; cases hy; exact k1) ht
    have := k3 x hx e (source_mem hs)
    have hk : (env.object o).kind ≠ .var := fun hk => hn ⟨j, o, hj, ho, hk⟩
    simp only [functionName, hj, ho, hk, decide_false, Bool.false_or] at this
    split at this
    · rename_i g hd; exact .inl ⟨g, hd⟩
    · rename_i hd; exact .inr hd
    · cases this
  · intro i hi
    obtain ⟨position, k1, k2⟩ := BodyReports.codeParam_iff.1 hi
    unfold paramCheck at h12
    rw [k1] at h12
    simp only [k2] at h12
    exact cleanIdent_sound h12
  · intro x i j hi hj
    have key : ∀ {i}, BodyReports.FieldAssigned body x i → i ∈ fieldTargets body ∧ i.obj = some x := by
      rintro i ⟨id, lhs, rhs, k, hw, sid, sel, hk, ho⟩
      refine ⟨List.mem_flatMap.2 ⟨.assign id lhs rhs, mem_nodes.2 (Props.ErrorTypes.occurs_of_within hw), ?_⟩, ho⟩
      exact List.mem_filterMap.2 ⟨_, List.mem_of_getElem? hk, rfl⟩
    obtain ⟨a1, a2⟩ := key hi
    obtain ⟨b1, b2⟩ := key hj
    have := h11 i a1 j b1
    simpa [a2, b2] using this

end Serum.Check
