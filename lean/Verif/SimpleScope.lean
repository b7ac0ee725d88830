import Verif.SimpleExprs
import Verif.Spec.Supported

/-! # A computable condition under which a function is in the scope of C24 (for examples) -/

namespace Serum
namespace Runtime
open Flow Analyse Props.Calls Props.Extract Props.Claims

/-- The identifier is not a variable called `nil`. -/
def okIdent (i : Ident) : Bool := i.obj.isNone || i.name != b!"nil"

/-- A literal without keys. -/
def positional (elts : List Node) : Bool := elts.all fun e => match e with | .keyValue .. => false | _ => true

/-- The selector denotes no method of the package. -/
def elsewhere (env : Env) (sid : NodeId) (y : Node) (sel : Ident) : Bool :=
  (match y.unparen with | .ident t => (env.pkgName t.id).isSome | _ => false) ||
  match env.selection sid with
  | some (recv, _) => (env.searchMethod recv sel.name).isNone
  | none => true

/-- A call of a declared function of the package, or of something in another package, or of an interface method. -/
def okCall (env : Env) (X : Extra) (f : FnId) (id : NodeId) (fn : Node) : Bool :=
  !X.conversion id && X.shift id == 0 &&
  match fn.unparen with
  | .ident i => i.name != b!"nil" &&
    match i.obj with
    | some x =>
      match (env.object x).decl with
      | .funcDecl g => env.callee id == some (env.funcObj g) &&
        !(decide (startPos (env.func f) < (env.object x).pos) && decide ((env.object x).pos < (env.func f).bodyEnd))
      | _ => false
    | none => false
  | .selector sid y sel => (env.callee id).isSome && elsewhere env sid y sel
  | _ => false

/-- An expression that is a variable, a literal, or a call of a declared function of the package. -/
def okExpr (env : Env) (X : Extra) (f : FnId) (e : Node) : Bool :=
  decide (env.value e.unparen.id = env.value e.id) &&
  match e.unparen with
  | .ident i => okIdent i && match env.value e.id with | some _ => false | none => true
  | .compositeLit _ elts => positional elts
  | .unary _ true y => match y.unparen with | .ident i => okIdent i | .compositeLit _ elts => positional elts | _ => false
  | .call id fn _ => okCall env X f id fn
  | .basicLit _ => true
  | _ => false

/-- `y.(T)` -/
def isAssertion : Node → Bool
  | .typeAssert .. => true
  | _ => false

/-- Neither range statements nor `x += …` nor `*p = …` nor `x, ok := y.(T)`; and `&x` is an error. -/
def okNode (env : Env) (X : Extra) : Node → Bool
  | .range .. => false
  | .assign id lhs rhs => !X.op id && (lhs.all fun l => !X.deref l.unparen.id) &&
    (lhs.length == rhs.length || rhs.all fun r => !isAssertion r.unparen)
  | .unary id true _ => env.implError (env.typeOf id)
  | _ => true

/-- The condition, apart from assignments to code fields. -/
def simpleScope (env : Env) (X : Extra) (f : FnId) (body : List Node) : Bool :=
  simple env body && (candidates env f body).all (okExpr env X f) &&
  (Node.inspectList (fun _ => true) body).all (okNode env X) && !X.deferred f &&
  ((env.func f).type.results.getD []).all (fun g => g.names.isEmpty) &&
  (env.func f).type.params.all (fun g => !g.names.isEmpty && g.names.all fun i => i.name != b!"nil")

variable {env : Env} {X : Extra} {f : FnId} {body : List Node}

theorem simpleScope_parts (h : simpleScope env X f body = true) :
    simple env body = true ∧ (∀ e ∈ candidates env f body, okExpr env X f e = true) ∧
    (∀ n, Occurs n body → okNode env X n = true) ∧ X.deferred f = false ∧
    (∀ fields, (env.func f).type.results = some fields → fields.flatMap Field.names = []) ∧
    AllNamed (env.func f).type.params ∧ (∀ i ∈ paramNames (env.func f).type.params, i.name ≠ b!"nil") := by
  unfold simpleScope at h
  simp only [Bool.and_eq_true, List.all_eq_true] at h
  obtain ⟨⟨⟨⟨⟨h1, h2⟩, h3⟩, h4⟩, h5⟩, h6⟩ := h
  refine ⟨h1, h2, fun n hn => h3 n ((mem_inspectList _ _ _).2 hn), by simpa using h4, ?_, ?_, ?_⟩
  · intro fields hf
    rw [hf] at h5
    simp only [Option.getD_some] at h5
    refine List.flatMap_eq_nil_iff.2 fun g hg => by simpa using h5 g hg
  · intro g hg
    have := (h6 g hg).1
    intro hn
    simp [hn] at this
  · intro i hi
    unfold paramNames at hi
    obtain ⟨g, hg, hi⟩ := List.mem_flatMap.1 hi
    have := (h6 g hg).2 i hi
    simpa using this

theorem errCall_candidate (h : simple env body = true) {id : NodeId} {fn : Node} {args : List Node}
    (hc : ErrCall env f body id fn args) : ∃ e ∈ candidates env f body, e.unparen = .call id fn args := by
  cases hc with
  | expr he hu => exact ⟨_, errExpr_candidate h he, hu⟩
  | last hx hd hu ht hp =>
    obtain ⟨aid, lhs, rhs, ho, -, hm⟩ := simple_destructured h hd
    exact ⟨_, mem_candidates ho (List.mem_append.2 (.inl hm)), hu⟩

/-- What is known about the callee. -/
inductive OkCallee (env : Env) (f : FnId) (id : NodeId) (fn : Node) : Prop where
  | own {i x g} : fn.unparen = .ident i → i.obj = some x → i.name ≠ b!"nil" → (env.object x).decl = .funcDecl g →
      env.callee id = some (env.funcObj g) → ¬ Declared env f x → OkCallee env f id fn
  | other {sid y sel q} : fn.unparen = .selector sid y sel → env.callee id = some q → (∀ g, ¬ Defined env fn g) → OkCallee env f id fn

theorem okExpr_call (h : okExpr env X f e = true) {id : NodeId} {fn : Node} {args : List Node} (hu : e.unparen = .call id fn args) :
    X.conversion id = false ∧ X.shift id = 0 ∧ OkCallee env f id fn := by
  unfold okExpr at h
  rw [hu] at h
  simp only [Bool.and_eq_true] at h
  have h := h.2
  unfold okCall at h
  simp only [Bool.and_eq_true] at h
  obtain ⟨⟨h1, h2⟩, h3⟩ := h
  refine ⟨by simpa using h1, by simpa using h2, ?_⟩
  split at h3
  · rename_i i hi
    simp only [Bool.and_eq_true] at h3
    obtain ⟨h3, h4⟩ := h3
    split at h4
    · rename_i x hx
      split at h4
      · rename_i g hg
        simp only [Bool.and_eq_true] at h4
        refine .own hi hx (by simpa using h3) hg (by simpa using h4.1) fun hd => ?_
        have := h4.2
        simp [hd.1, hd.2] at this
      · cases h4
    · cases h4
  · rename_i sid y sel hs
    simp only [Bool.and_eq_true] at h3
    obtain ⟨q, hq⟩ := Option.isSome_iff_exists.1 h3.1
    refine .other hs hq fun g hg => ?_
    have h4 := h3.2
    unfold elsewhere at h4
    rcases hg with ⟨_, _, hi, -⟩ | ⟨_, hi, -⟩ | ⟨_, _, _, _, _, hi, hp, hsel, hm⟩ | ⟨_, _, _, hi⟩
    · rw [hs] at hi; cases hi
    · rw [hs] at hi; cases hi
    · rw [hs] at hi; cases hi
      rw [hsel] at h4
      simp only [hm, Option.isNone_some, Bool.or_false] at h4
      split at h4
      · rename_i t ht; rw [hp t ht] at h4; cases h4
      · cases h4
    · rw [hs] at hi; cases hi
  · cases h3

theorem simpleScope_wild (h : simpleScope env X f body = true) (x : ObjId) : ¬ Wild env X body x := by
  obtain ⟨h1, h2, h3, -⟩ := simpleScope_parts h
  rintro (h | h | h | h | h)
  · exact simple_noLit h1 x h
  · obtain ⟨id, k, v, e, b, n, i, ho, -⟩ := h
    have := h3 _ ho
    simp [okNode] at this
  · obtain ⟨id, fn, type, b, fields, ho, -⟩ := h
    have := simple_node h1 ho
    simp [simpleNode] at this
  · obtain ⟨id, e, i, ho, -, -, hi⟩ := h
    have := h3 _ ho
    simp [okNode, hi] at this
  · obtain ⟨id, lhs, rhs, l, i, ho, hop, -⟩ := h
    have := h3 _ ho
    simp [okNode, hop] at this

theorem simple_initChain (h : simple env body = true) {i : Ident} : CleanRoot env body i := fun _ p _ _ => simple_noLit h p

theorem simpleScope_parsed (h : simpleScope env X f body = true) : Parsed env X f body := by
  obtain ⟨h1, h2, h3, h4, h5, h6, h7⟩ := simpleScope_parts h
  have src : ∀ {x e}, Source env body x e → okExpr env X f e = true := fun hs => by
    obtain ⟨⟨id, lhs, rhs, ho, hl, k, l, t, -, -, -, hk⟩, -⟩ := simple_source h1 hs
    exact h2 _ (mem_candidates ho (List.mem_append.2 (.inl (List.mem_of_getElem? hk))))
  have ee : ∀ {e}, ErrExpr env f body e → okExpr env X f e = true := fun he => h2 _ (errExpr_candidate h1 he)
  have call : ∀ {id fn args}, ErrCall env f body id fn args → X.conversion id = false ∧ X.shift id = 0 ∧ OkCallee env f id fn := fun hc => by
    obtain ⟨e, he, hu⟩ := errCall_candidate h1 hc
    exact okExpr_call (h2 e he) hu
  have id_ : ∀ {e i x}, okExpr env X f e = true → e.unparen = .ident i → i.obj = some x → i.name ≠ b!"nil" ∧ env.value e.id = none := by
    intro e i x he hu hx
    unfold okExpr okIdent at he
    rw [hu] at he
    simp only [hx, Bool.and_eq_true] at he
    refine ⟨by simpa using he.2.1, ?_⟩
    have := he.2.2
    cases hv : env.value e.id with
    | none => rfl
    | some v => rw [hv] at this; cases this
  have lit : ∀ {e id elts}, okExpr env X f e = true →
      (e.unparen = .compositeLit id elts ∨ ∃ y cid, e.unparen = .unary id true y ∧ y.unparen = .compositeLit cid elts) →
      ∀ e ∈ elts, ∀ id k v, e ≠ .keyValue id k v := by
    intro e id elts he hu e' he' id' k v hk
    subst hk
    have : positional elts = true := by
      unfold okExpr at he
      rcases hu with hu | ⟨y, cid, hu, hy⟩
      · rw [hu] at he; simp only [Bool.and_eq_true] at he; exact he.2
      · rw [hu] at he; simp only [Bool.and_eq_true, hy] at he; exact he.2
    unfold positional at this
    have := List.all_eq_true.1 this _ he'
    simp at this
  refine ⟨fun x e j y hs hv => (id_ (src hs) hv.1 hv.2.1).1, ?_, fun p i hp hi => h7 i (List.mem_of_getElem? hi), ?_, ?_,
    fun x e j y hs hv s => by rw [(id_ (src hs) hv.1 hv.2.1).2]; simp, ?_, fun _ => h6, ?_, ?_, ?_, ?_, ?_⟩
  · intro e i x he hr hx
    rcases hr with hr | ⟨id, y, hu, -, hy⟩ | ⟨id, y, hu⟩
    · exact (id_ (ee he) hr hx).1
    · have := ee he
      unfold okExpr okIdent at this
      rw [hu] at this
      simp only [hy, hx, Bool.and_eq_true] at this
      simpa using this.2
    · have := ee he
      unfold okExpr at this
      rw [hu] at this
      simp at this
  · intro id fn args i x hc hu hx
    rcases (call hc).2.2 with ⟨hj, -, hn, -⟩ | ⟨hj, -⟩
    · rw [hu] at hj
      cases hj
      exact hn
    · rw [hu] at hj; cases hj
  · intro e id y sel he hu
    have := ee he
    unfold okExpr at this
    rw [hu] at this
    simp at this
  · intro x e hs
    have := src hs
    unfold okExpr at this
    simp only [Bool.and_eq_true, decide_eq_true_eq] at this
    exact this.1
  · intro e id elts et fd he hu _ _
    exact .inr (lit (ee he) hu)
  · intro e id y id' y' he hu hy
    have := ee he
    unfold okExpr at this
    rw [hu] at this
    simp [hy] at this
  · intro id fn args hc hconv
    rw [(call hc).1] at hconv
    cases hconv
  · intro id fn args hc _
    rcases (call hc).2.2 with @⟨j, y, g, hj, hy, hn, hd, hcal, -⟩ | ⟨hj, -, hno⟩
    case other => exact ⟨fun x ⟨i, hi, _⟩ => (by rw [hj] at hi; cases hi), fun g hg => absurd hg (hno g)⟩
    refine ⟨fun x ⟨i, hi, hx, hg⟩ => ?_, fun g' hg' hdecl => ?_⟩
    · rw [hj] at hi; cases hi
      rw [hy] at hx; cases hx
      exact absurd hd (hg g)
    · rcases hg' with ⟨i, o, hi, ho, hg⟩ | ⟨i, hi, ho, hg⟩ | ⟨_, _, _, _, _, hi, -⟩ | ⟨_, _, _, hi⟩
      · rw [hj] at hi; cases hi
        rw [hy] at ho; cases ho
        rw [hd] at hg; cases hg
        exact hcal
      · rw [hj] at hi; cases hi
        rw [hy] at ho; cases ho
      · rw [hj] at hi; cases hi
      · rw [hj] at hi; cases hi
  · intro id fn args i x e hc hu ht
    rcases (call hc).2.2 with ⟨hj, hy, hn, hd, hcal, hout⟩ | ⟨hj, -⟩
    case other => rw [hu] at hj; cases hj
    rw [hu] at hj; cases hj
    exact absurd ht (no_tracked hy hn hout)
where
  no_tracked {i : Ident} {y x : ObjId} (hy : i.obj = some y) (hn : i.name ≠ b!"nil") (hout : ¬ Declared env f y) :
      ¬ Tracked env (env.func f) body none [] i x := by
    intro ht
    induction ht with
    | start hx _ hl _ =>
      rw [hy] at hx; cases hx
      rcases hl with ⟨h, -⟩ | ⟨h, -⟩
      · exact h rfl
      · rcases h with h | ⟨o, ho, hp⟩
        · exact hn h
        · rw [hy] at ho; cases ho
          exact hout hp
    | step _ _ _ _ _ _ ih => exact ih

/-- The stores condition of `Supported`. -/
def Stores (env : Env) (X : Extra) (f : FnId) (body : List Node) : Prop :=
  ∀ id lhs rhs (k : Nat) (l : Node) sid y sel et, Occurs (.assign id lhs rhs) body → lhs[k]? = some l →
    l.unparen = .selector sid y sel → X.codeField sid = some et →
    WithinList outsideAssignments (.assign id lhs rhs) body ∧ X.op id = false ∧
    ∃ i x fd, l = .selector sid (.ident i) sel ∧ i.obj = some x ∧ ErrVar env f body x ∧
      Props.Fields.FieldType env body x et ∧ et.field = some fd ∧ sel.name = fd.name

theorem simpleScope_supported (h : simpleScope env X f body = true) (hs : Stores env X f body) : Supported env X f body := by
  obtain ⟨h1, h2, h3, h4, h5, h6, h7⟩ := simpleScope_parts h
  have call : ∀ {id fn args}, ErrCall env f body id fn args → X.conversion id = false ∧ X.shift id = 0 ∧ OkCallee env f id fn := fun hc => by
    obtain ⟨e, he, hu⟩ := errCall_candidate h1 hc
    exact okExpr_call (h2 e he) hu
  refine ⟨fun x _ => simpleScope_wild h x, ?_, hs, ?_, h4, ?_, ?_, fun id fn args q p hc _ _ => (call hc).2.1,
    fun _ _ _ _ x _ _ _ => simpleScope_wild h x, fun _ _ _ _ _ _ _ _ => simple_initChain h1,
    fun _ _ x _ _ _ => simpleScope_wild h x, fun _ _ _ _ => simple_initChain h1⟩
  · rintro x et - ⟨⟨names, hz⟩ | ⟨fields, n, hf, hn, -⟩ | ⟨d, id, y, t, hd, hu⟩, -⟩
    · exact absurd hz (simple_decl h1 x)
    · rw [h5 fields hf] at hn; cases hn
    · rcases hd with ⟨_, _, _, hd, -⟩ | ⟨aid, lhs, rhs, ho, hl, l, -, -, -, hr⟩
      · exact absurd hd (simple_decl h1 x)
      · have := h3 _ ho
        simp only [okNode, Bool.and_eq_true, Bool.or_eq_true, List.all_eq_true, beq_iff_eq] at this
        rcases this.2 with h' | h'
        · exact absurd h' hl
        · have := h' _ (List.mem_of_mem_head? hr)
          rw [hu] at this; cases this
  · rintro ⟨id, lhs, rhs, l, ho, hl, hd⟩
    have := h3 _ ho
    simp only [okNode, Bool.and_eq_true, List.all_eq_true] at this
    have := this.1.2 l hl
    simp [hd] at this
  · intro id fn args et hc hconv
    rw [(call hc).1] at hconv; cases hconv
  · intro id fn args hc _ hn
    rcases (call hc).2.2 with ⟨-, -, -, -, hcal, -⟩ | ⟨-, hcal, -⟩ <;> rw [hcal] at hn <;> cases hn

end Runtime
end Serum
