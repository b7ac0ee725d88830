import Verif.Spec.Renaming

/-! # Renaming variables: what is done in a body -/

namespace Serum
namespace Rename

/-- The same way to stop, or related results. -/
inductive ERel {α β : Type} (r : α → β → Prop) : Except Stop α → Except Stop β → Prop where
  | ok {a b} : r a b → ERel r (.ok a) (.ok b)
  | error {e} : ERel r (.error e) (.error e)

theorem ERel.bind {α β γ δ : Type} {r : α → β → Prop} {s : γ → δ → Prop} {x : Except Stop α} {y : Except Stop β}
    {f : α → Except Stop γ} {g : β → Except Stop δ} (h : ERel r x y) (k : ∀ a b, r a b → ERel s (f a) (g b)) :
    ERel s (x >>= f) (y >>= g) := by
  cases h with
  | ok h => exact k _ _ h
  | error => exact .error

theorem ERel.ite {α β : Type} {r : α → β → Prop} {c : Prop} [Decidable c] {x x' : Except Stop α} {y y' : Except Stop β}
    (h : c → ERel r x y) (h' : ¬ c → ERel r x' y') : ERel r (if c then x else x') (if c then y else y') := by
  split
  · exact h ‹_›
  · exact h' ‹_›

theorem ERel.of_eq {α : Type} {x y : Except Stop α} (h : y = x) : ERel (fun a b => b = a) x y := by
  subst h
  cases y with
  | ok a => exact .ok rfl
  | error e => exact .error

theorem ERel.mono {α β : Type} {r s : α → β → Prop} {x : Except Stop α} {y : Except Stop β} (h : ERel r x y) (k : ∀ a b, r a b → s a b) : ERel s x y := by
  cases h with
  | ok h => exact .ok (k _ _ h)
  | error => exact .error

theorem _root_.Serum.Pairwise₂.append {α β : Type} {R : α → β → Prop} {a b : List α} {a' b' : List β} (h : Pairwise₂ R a a') (k : Pairwise₂ R b b') :
    Pairwise₂ R (a ++ b) (a' ++ b') := by
  induction h with
  | nil => exact k
  | cons h _ ih => exact .cons h ih

theorem _root_.Serum.Pairwise₂.refl {α : Type} {R : α → α → Prop} (h : ∀ a, R a a) : ∀ l : List α, Pairwise₂ R l l
  | [] => .nil
  | a :: l => .cons (h a) (Pairwise₂.refl h l)

theorem _root_.Serum.Pairwise₂.map {α β γ δ : Type} {R : α → β → Prop} {Q : γ → δ → Prop} {f : α → γ} {g : β → δ} {a : List α} {a' : List β}
    (h : Pairwise₂ R a a') (k : ∀ x y, R x y → Q (f x) (g y)) : Pairwise₂ Q (a.map f) (a'.map g) := by
  induction h with
  | nil => exact .nil
  | cons h _ ih => exact .cons (k _ _ h) ih

theorem _root_.Serum.Pairwise₂.mono {α β : Type} {R Q : α → β → Prop} {a : List α} {a' : List β}
    (h : Pairwise₂ R a a') (k : ∀ x y, R x y → Q x y) : Pairwise₂ Q a a' := by
  induction h with
  | nil => exact .nil
  | cons h _ ih => exact .cons (k _ _ h) ih

variable {ρ : Renaming} {env : Env} {f : FnId}

/-! ## Identifiers -/

/-- The same identifier, apart from its name. -/
structure Alike (ρ : Renaming) (i j : Ident) : Prop where
  id : j.id = i.id
  obj : j.obj = i.obj
  isNil : j.name = b!"nil" ↔ i.name = b!"nil"
  free : i.obj = none → j.name = i.name
  shown : ρ.Shown i.name j.name

theorem Alike.refl (i : Ident) : Alike ρ i i := ⟨rfl, rfl, .rfl, fun _ => rfl, .inl rfl⟩

section
variable (hρ : ρ.Valid)

include hρ in
theorem alike (i : Ident) : Alike ρ i (ρ.ident i) := by
  unfold Renaming.ident
  split
  · exact .refl i
  · rename_i hn
    split
    · rename_i n hb
      cases ho : i.obj with
      | none => rw [ho] at hb; cases hb
      | some x =>
        rw [ho] at hb
        refine ⟨rfl, ho.symm, ⟨fun h => (hρ.named x n hb h).elim, fun h => (hn h).elim⟩, fun h => ?_, .inr ⟨x, hb⟩⟩
        rw [ho] at h; cases h
    · exact .refl i

include hρ in
theorem ident_id (i : Ident) : (ρ.ident i).id = i.id := (alike hρ i).id
include hρ in
theorem ident_obj (i : Ident) : (ρ.ident i).obj = i.obj := (alike hρ i).obj

/-! ## Nodes -/

theorem renameList_eq (l : List Node) : Node.renameList ρ l = l.map (Node.rename ρ) := by
  induction l with
  | nil => rfl
  | cons n l ih => rw [Node.renameList, ih]; rfl

theorem renameOption_eq (o : Option Node) : Node.renameOption ρ o = o.map (Node.rename ρ) := by cases o <;> rfl

theorem rename_length (l : List Node) : (Node.renameList ρ l).length = l.length := by simp [renameList_eq]

/-- A `key: value` pair stays one. -/
theorem rename_keyValue (id : NodeId) (k v : Node) : ∃ k', (Node.keyValue id k v).rename ρ = .keyValue id k' (v.rename ρ) := by
  cases k <;> exact ⟨_, rfl⟩

include hρ in
theorem rename_id (n : Node) : (n.rename ρ).id = n.id := by
  cases n with
  | ident i => exact ident_id hρ i
  | keyValue id k v => obtain ⟨k', h⟩ := rename_keyValue (ρ := ρ) id k v; rw [h]; rfl
  | _ => rfl

theorem rename_unparen : ∀ n : Node, (n.rename ρ).unparen = n.unparen.rename ρ
  | .paren _ x => by rw [Node.rename, Node.unparen, Node.unparen]; exact rename_unparen x
  | .keyValue id k v => by obtain ⟨k', h⟩ := rename_keyValue (ρ := ρ) id k v; rw [h, Node.unparen, Node.unparen, h] <;> nofun
  | .ident _ | .basicLit _ | .compositeLit .. | .funcLit .. | .selector .. | .index .. | .typeAssert .. | .call .. | .unary ..
  | .assign .. | .ret .. | .valueSpec .. | .typeSwitch .. | .caseClause .. | .range .. | .send .. | .other .. => by
    simp [Node.rename, Node.unparen]

/-- The same node with variables renamed; the names of fields before colons may refer to something else. -/
inductive NodeRel (ρ : Renaming) : Node → Node → Prop where
  | same {n} : NodeRel ρ n (n.rename ρ)
  | ident {i j} : NodeRel ρ (.ident i) (.ident j)

/-- The same nodes, apart from quiet ones which are left out. -/
inductive InspRel (ρ : Renaming) : List Node → List Node → Prop where
  | nil : InspRel ρ [] []
  | cons {a b l l'} : NodeRel ρ a b → InspRel ρ l l' → InspRel ρ (a :: l) (b :: l')
  | skip {a l l'} : a.Quiet → InspRel ρ l l' → InspRel ρ (a :: l) l'

theorem InspRel.append {a b a' b' : List Node} (h : InspRel ρ a a') (k : InspRel ρ b b') : InspRel ρ (a ++ b) (a' ++ b') := by
  induction h with
  | nil => exact k
  | cons h _ ih => exact .cons h ih
  | skip h _ ih => exact .skip h ih

theorem InspRel.skips {b b' : List Node} (k : InspRel ρ b b') : ∀ {a : List Node}, (∀ n ∈ a, n.Quiet) → InspRel ρ (a ++ b) b'
  | [], _ => k
  | n :: _, h => .skip (h n (List.mem_cons_self ..)) (InspRel.skips k fun m hm => h m (List.mem_cons_of_mem _ hm))

theorem within_all {go : Node → Bool} {m n : Node} (h : Within go m n) : Within (fun _ => true) m n := by
  induction h with
  | self => exact .self
  | child _ hc _ ih => exact .child rfl hc ih

theorem idents_rel (ns : List Ident) : InspRel ρ (ns.map .ident) ((ns.map ρ.ident).map .ident) := by
  induction ns with
  | nil => exact .nil
  | cons n ns ih => exact .cons .ident ih

include hρ in
/-- `ast.Inspect` meets the same nodes. -/
theorem inspect_rel {go : Node → Bool} (hgo : ∀ n, go (n.rename ρ) = go n) :
    (∀ n : Node, InspRel ρ (Node.inspect go n) (Node.inspect go (n.rename ρ))) := by
  have hif : ∀ {c : Bool} {l l' : List Node}, InspRel ρ l l' →
      InspRel ρ (if c = true then l else []) (if c = true then l' else []) := by
    intro c l l' h; cases c; exact .nil; exact h
  refine fun n => Node.rec (motive_1 := fun n => InspRel ρ (Node.inspect go n) (Node.inspect go (n.rename ρ)))
    (motive_2 := fun l => InspRel ρ (Node.inspectList go l) (Node.inspectList go (Node.renameList ρ l)) ∧
      InspRel ρ (Node.inspectList go l) (Node.inspectList go (Node.renameStmts ρ l)))
    (motive_3 := fun o => InspRel ρ (Node.inspectOption go o) (Node.inspectOption go (Node.renameOption ρ o)))
    ?_ ?_ ?_ ?_ ?_ ?_ ?_ ?_ ?_ ?_ ?_ ?_ ?_ ?_ ?_ ?_ ?_ ?_ ?_ ?_ ?_ ?_ ?_ n
  case refine_1 => intro i; exact .cons .same .nil
  case refine_2 => intro i; exact .cons .same .nil
  case refine_3 =>
    intro id elts ih
    have := hgo (.compositeLit id elts)
    simp only [Node.rename, Node.inspect] at this ⊢
    rw [this]; exact .cons .same (hif ih.1)
  case refine_4 =>
    intro id k v ihk ihv
    have := hgo (.keyValue id k v)
    cases k with
    | ident k =>
      simp only [Node.rename, Node.inspect] at this ⊢
      rw [this]; exact .cons .same (hif (.cons .ident ihv))
    | _ =>
      simp only [Node.rename] at this
      conv => arg 3; simp only [Node.rename]; rw [Node.inspect]
      rw [Node.inspect, this]
      exact .cons .same (hif (InspRel.append ihk ihv))
  case refine_5 =>
    intro id g t b ih
    have := hgo (.funcLit id g t b)
    simp only [Node.rename, Node.inspect] at this ⊢
    rw [this]; exact .cons .same (hif ih.2)
  case refine_6 =>
    intro id x ih
    have := hgo (.paren id x)
    simp only [Node.rename, Node.inspect] at this ⊢
    rw [this]; exact .cons .same (hif ih)
  case refine_7 =>
    intro id x s ih
    have := hgo (.selector id x s)
    simp only [Node.rename, Node.inspect] at this ⊢
    rw [this]; exact .cons .same (hif (InspRel.append ih (.cons .ident .nil)))
  case refine_8 =>
    intro id x y ih ih'
    have := hgo (.index id x y)
    simp only [Node.rename, Node.inspect] at this ⊢
    rw [this]; exact .cons .same (hif (InspRel.append ih ih'))
  case refine_9 =>
    intro id x t ih
    have := hgo (.typeAssert id x t)
    simp only [Node.rename, Node.inspect] at this ⊢
    rw [this]; exact .cons .same (hif ih)
  case refine_10 =>
    intro id x t ih ih'
    have := hgo (.call id x t)
    simp only [Node.rename, Node.inspect] at this ⊢
    rw [this]; exact .cons .same (hif (InspRel.append ih ih'.1))
  case refine_11 =>
    intro id a x ih
    have := hgo (.unary id a x)
    simp only [Node.rename, Node.inspect] at this ⊢
    rw [this]; exact .cons .same (hif ih)
  case refine_12 =>
    intro id x t ih ih'
    have := hgo (.assign id x t)
    simp only [Node.rename, Node.inspect] at this ⊢
    rw [this]; exact .cons .same (hif (InspRel.append ih.1 ih'.1))
  case refine_13 =>
    intro id x ih
    have := hgo (.ret id x)
    simp only [Node.rename, Node.inspect] at this ⊢
    rw [this]; exact .cons .same (hif ih.1)
  case refine_14 =>
    intro id ns t vs ih
    have := hgo (.valueSpec id ns t vs)
    simp only [Node.rename, Node.inspect] at this ⊢
    rw [this]; exact .cons .same (hif (InspRel.append (idents_rel ns) ih.1))
  case refine_15 =>
    intro id s a cs ih ih' ih''
    have := hgo (.typeSwitch id s a cs)
    simp only [Node.rename, Node.inspect] at this ⊢
    rw [this]; exact .cons .same (hif (InspRel.append (InspRel.append ih.1 ih') ih''.1))
  case refine_16 =>
    intro id s a ih ih'
    have := hgo (.caseClause id s a)
    simp only [Node.rename, Node.inspect] at this ⊢
    rw [this]; exact .cons .same (hif (InspRel.append ih.1 ih'.2))
  case refine_17 =>
    intro id k v x b ih ih' ih'' ih'''
    have := hgo (.range id k v x b)
    simp only [Node.rename, Node.inspect] at this ⊢
    rw [this]; exact .cons .same (hif (InspRel.append (InspRel.append (InspRel.append ih ih') ih'') ih'''.2))
  case refine_18 =>
    intro id s a ih ih'
    have := hgo (.send id s a)
    simp only [Node.rename, Node.inspect] at this ⊢
    rw [this]; exact .cons .same (hif (InspRel.append ih ih'))
  case refine_19 =>
    intro id x ih
    have := hgo (.other id x)
    simp only [Node.rename, Node.inspect] at this ⊢
    rw [this]; exact .cons .same (hif ih.2)
  case refine_20 => exact ⟨.nil, .nil⟩
  case refine_21 =>
    intro n ns ih ih'
    refine ⟨InspRel.append ih ih'.1, ?_⟩
    unfold Node.renameStmts
    split
    · rename_i hd
      exact ih'.2.skips fun m hm => hρ.quiet n hd m (within_all ((mem_inspect go m n).1 hm))
    · exact InspRel.append ih ih'.2
  case refine_22 => exact .nil
  case refine_23 => intro n ih; exact ih

include hρ in
theorem inspectList_rel {go : Node → Bool} (hgo : ∀ n, go (n.rename ρ) = go n) (l : List Node) :
    InspRel ρ (Node.inspectList go l) (Node.inspectList go (Node.renameStmts ρ l)) := by
  induction l with
  | nil => exact .nil
  | cons n l ih =>
    unfold Node.renameStmts
    split
    · rename_i hd
      exact ih.skips fun m hm => hρ.quiet n hd m (within_all ((mem_inspect go m n).1 hm))
    · exact InspRel.append (inspect_rel hρ hgo n) ih

/-! ## The environment -/

theorem func_rename : (env.rename ρ).func f = (env.func f).rename ρ := by
  unfold Env.func Env.rename
  simp only [List.getD_eq_getElem?_getD, List.getElem?_map]
  cases env.funcs[f]? <;> rfl

theorem object_rename (o : ObjId) : (env.rename ρ).object o = (env.object o).rename ρ := by
  unfold Env.object Env.rename
  simp only [List.getD_eq_getElem?_getD, List.getElem?_map]
  cases env.objects[o]? <;> rfl

include hρ in
theorem fieldNames (g : Field) : (g.rename ρ).names.map Ident.obj = g.names.map Ident.obj := by
  simp only [Field.rename, List.map_map]
  refine List.map_congr_left fun i _ => ident_obj hρ i

/-! ## Variable tracking -/

/-- The same destructuring assignment. -/
structure DestrRel (ρ : Renaming) (d d' : Destruct) : Prop where
  position : d'.position = d.position
  target : Alike ρ d.target d'.target
  source : d'.source = d.source.rename ρ

/-- The same state. -/
structure TaintRel (ρ : Renaming) (s s' : TaintState) : Prop where
  visited : s'.visited = s.visited
  blocked : s'.blocked = s.blocked
  expressions : s'.expressions = Node.renameList ρ s.expressions
  destructs : Pairwise₂ (DestrRel ρ) s.destructs s'.destructs
  outOfScope : Pairwise₂ (Alike ρ) s.outOfScope s'.outOfScope

/-- Following variables in the same way. -/
def FollowRel (ρ : Renaming) (follow follow' : Ident → TaintState → Except Stop TaintState) : Prop :=
  ∀ i j s s', Alike ρ i j → TaintRel ρ s s' → ERel (TaintRel ρ) (follow i s) (follow' j s')

theorem outside_rename {i j : Ident} (h : Alike ρ i j) :
    isIdentOriginOutsideFunctionScope (env.rename ρ) ((env.func f).rename ρ) j = isIdentOriginOutsideFunctionScope env (env.func f) i := by
  have h1 : ((env.func f).rename ρ).type.results.isSome = (env.func f).type.results.isSome := by
    simp [FuncDef.rename, FuncType.rename]
  unfold isIdentOriginOutsideFunctionScope
  rw [h1, h.obj]
  simp only [h.isNil, object_rename]
  rfl

theorem TaintRel.expr {s s' : TaintState} (h : TaintRel ρ s s') (e : Node) :
    TaintRel ρ { s with expressions := s.expressions ++ [e] } { s' with expressions := s'.expressions ++ [e.rename ρ] } :=
  ⟨h.visited, h.blocked, by simp [h.expressions, renameList_eq], h.destructs, h.outOfScope⟩

theorem TaintRel.destr {s s' : TaintState} (h : TaintRel ρ s s') {d d' : Destruct} (hd : DestrRel ρ d d') :
    TaintRel ρ { s with destructs := s.destructs ++ [d] } { s' with destructs := s'.destructs ++ [d'] } :=
  ⟨h.visited, h.blocked, h.expressions, Pairwise₂.append h.destructs (.cons hd .nil), h.outOfScope⟩

variable {follow follow' : Ident → TaintState → Except Stop TaintState}

include hρ in
theorem assignedExpr_rename (hf : FollowRel ρ follow follow') {s s' : TaintState} (h : TaintRel ρ s s') (e : Node) :
    ERel (TaintRel ρ) (Taint.processAssignedExpr env follow e s) (Taint.processAssignedExpr (env.rename ρ) follow' (e.rename ρ) s') := by
  unfold Taint.processAssignedExpr
  rw [rename_unparen]
  cases hu : e.unparen with
  | ident i =>
    simp only [Node.rename]
    rw [ident_obj hρ]
    cases i.obj with
    | none => exact .ok (h.expr (.ident i))
    | some o =>
      dsimp only
      rw [object_rename]
      have : ((env.object o).rename ρ).kind = (env.object o).kind := rfl
      rw [this]
      split
      · exact hf _ _ _ _ (alike hρ i) h
      · exact .ok (h.expr (.ident i))
  | keyValue id k v =>
    have := TaintRel.expr h (.keyValue id k v)
    obtain ⟨k', hk⟩ := rename_keyValue (ρ := ρ) id k v
    rw [hk] at this ⊢
    exact .ok this
  | _ => exact .ok (h.expr _)

include hρ in
theorem valueInSpec_rename (hf : FollowRel ρ follow follow') (o : ObjId) (names : List Ident) (values : List Node) :
    ∀ (ns : List Ident) (i : Nat) {s s' : TaintState}, TaintRel ρ s s' →
      ERel (TaintRel ρ) (Taint.findValueInSpec env follow o names values i ns s)
        (Taint.findValueInSpec (env.rename ρ) follow' o (names.map ρ.ident) (Node.renameList ρ values) i (ns.map ρ.ident) s') := by
  intro ns
  induction ns with
  | nil => intro i s s' h; exact .ok h
  | cons n ns ih =>
    intro i s s' h
    simp only [List.map_cons, Taint.findValueInSpec, ident_obj hρ, rename_length, List.length_map]
    split
    · split
      · rw [renameList_eq, List.getElem?_map]
        cases values[i]? with
        | none => exact .error
        | some v => exact assignedExpr_rename hρ hf h v
      · cases values with
        | nil => exact .ok h
        | cons v vs => exact .ok (h.destr ⟨rfl, alike hρ n, rfl⟩)
    · exact ih _ h

include hρ in
theorem initValue_rename (hf : FollowRel ρ follow follow') (o : ObjId) {s s' : TaintState} (h : TaintRel ρ s s') :
    ERel (TaintRel ρ) (Taint.processInitValue env follow o s) (Taint.processInitValue (env.rename ρ) follow' o s') := by
  unfold Taint.processInitValue
  rw [object_rename]
  unfold ObjInfo.rename
  cases (env.object o).decl with
  | valueSpec names values =>
    simp only [rename_length]
    split
    · exact .ok h
    · exact valueInSpec_rename hρ hf o names values names 0 h
  | _ => exact .ok h

include hρ in
theorem blockParams_rename : ∀ (is : List Ident) {s s' : TaintState}, TaintRel ρ s s' →
    ERel (TaintRel ρ) (Taint.blockParams is s) (Taint.blockParams (is.map ρ.ident) s') := by
  intro is
  induction is with
  | nil => intro s s' h; exact .ok h
  | cons i is ih =>
    intro s s' h
    simp only [List.map_cons, Taint.blockParams, ident_obj hρ]
    cases i.obj with
    | none => exact .error
    | some o => exact ih ⟨h.visited, by rw [h.blocked], h.expressions, h.destructs, h.outOfScope⟩

include hρ in
theorem assignment_rename (hf : FollowRel ρ follow follow') (o : ObjId) (lhs rhs : List Node) :
    ∀ (ls : List Node) (i : Nat) {s s' : TaintState}, TaintRel ρ s s' →
      ERel (TaintRel ρ) (Taint.processAssignment env follow o lhs rhs i ls s)
        (Taint.processAssignment (env.rename ρ) follow' o (Node.renameList ρ lhs) (Node.renameList ρ rhs) i (Node.renameList ρ ls) s') := by
  intro ls
  induction ls with
  | nil => intro i s s' h; exact .ok h
  | cons l ls ih =>
    intro i s s' h
    rw [Node.renameList]
    unfold Taint.processAssignment
    rw [rename_unparen]
    cases l.unparen with
    | ident t =>
      simp only [Node.rename, ident_obj hρ, rename_length]
      split
      · split
        · cases rhs with
          | nil => exact .error
          | cons r rs => exact ih _ (h.destr ⟨rfl, alike hρ t, rfl⟩)
        · have : (Node.renameList ρ rhs)[i]? = rhs[i]?.map (Node.rename ρ) := by rw [renameList_eq, List.getElem?_map]
          rw [this]
          cases rhs[i]? with
          | none => exact .error
          | some r =>
            simp only [Option.map_some]
            have hk := assignedExpr_rename hρ hf (env := env) h r
            generalize Taint.processAssignedExpr env follow r s = x at hk
            generalize Taint.processAssignedExpr (env.rename ρ) follow' (r.rename ρ) s' = y at hk
            cases hk with
            | error => exact .error
            | ok hk => exact ih (i + 1) hk
      · exact ih _ h
    | keyValue id k v =>
      obtain ⟨k', hk⟩ := rename_keyValue (ρ := ρ) id k v
      rw [hk]
      exact ih _ h
    | _ => exact ih _ h

theorem params_rename (type : FuncType) :
    (type.rename ρ).params.flatMap Field.names = (type.params.flatMap Field.names).map ρ.ident := by
  simp only [FuncType.rename, List.flatMap_map, List.map_flatMap]
  rfl

include hρ in
theorem processNodes_rename (hf : FollowRel ρ follow follow') (o : ObjId) {ns ns' : List Node} (hn : InspRel ρ ns ns') :
    ∀ {s s' : TaintState}, TaintRel ρ s s' →
      ERel (TaintRel ρ) (Taint.processNodes env follow o ns s) (Taint.processNodes (env.rename ρ) follow' o ns' s') := by
  induction hn with
  | nil => intro s s' h; exact .ok h
  | @skip n ns ns' hq _ ih =>
    intro s s' h
    cases n <;> first | exact hq.elim | exact ih h
  | @cons n n' ns ns' hr hrs ih =>
    intro s s' h
    unfold Taint.processNodes
    have step : ∀ {r r' : Except Stop TaintState}, ERel (TaintRel ρ) r r' →
        ERel (TaintRel ρ) (match r with | .ok st => Taint.processNodes env follow o ns st | .error e => .error e)
          (match r' with | .ok st => Taint.processNodes (env.rename ρ) follow' o ns' st | .error e => .error e) := by
      intro r r' hr
      cases hr with
      | ok hr => exact ih hr
      | error => exact .error
    refine step ?_
    cases hr with
    | ident => exact .ok h
    | same =>
      cases n with
      | funcLit id g t b =>
        simp only [Node.rename]
        rw [params_rename]
        exact blockParams_rename hρ _ h
      | assign id l r => exact assignment_rename hρ hf o l r l 0 h
      | keyValue id k v =>
        obtain ⟨k', hk⟩ := rename_keyValue (ρ := ρ) id k v
        rw [hk]
        exact .ok h
      | _ => exact .ok h

include hρ in
theorem findSpread_rename (body : List Node) (param : Option ObjId) : ∀ n,
    FollowRel ρ (Taint.findSpread env (env.func f) body param n)
      (Taint.findSpread (env.rename ρ) ((env.func f).rename ρ) (Node.renameStmts ρ body) param n) := by
  intro n
  induction n with
  | zero => intro i j s s' _ _; exact .error
  | succ n ih =>
    intro i j s s' hi h
    simp only [Taint.findSpread, outside_rename hi, hi.obj, hi.isNil, h.blocked, h.visited]
    refine .ite (fun _ => .ok ⟨rfl, rfl, h.expressions, h.destructs, Pairwise₂.append h.outOfScope (.cons hi .nil)⟩) fun _ => ?_
    refine .ite (fun _ => .ok h) fun _ => ?_
    cases i.obj with
    | none => exact .ok h
    | some o =>
      refine .ite (fun _ => .ok h) fun _ => ?_
      have h' : TaintRel ρ { s with visited := s.visited ++ [o] } { s' with visited := s.visited ++ [o], blocked := s.blocked } :=
        ⟨rfl, rfl, h.expressions, h.destructs, h.outOfScope⟩
      have hv := initValue_rename hρ ih (env := env) o h'
      have hn := inspectList_rel hρ (go := fun _ => true) (fun _ => rfl) body
      generalize Taint.processInitValue env _ _ _ = x at hv ⊢
      generalize Taint.processInitValue (env.rename ρ) _ _ _ = y at hv ⊢
      cases hv with
      | error => exact .error
      | ok hv => exact processNodes_rename hρ ih (env := env) o hn hv

include hρ in
theorem run_rename (body : List Node) (param : Option ObjId) (n : Nat) (visited : List ObjId) {i j : Ident} (hi : Alike ρ i j) :
    ERel (TaintRel ρ) (Taint.run env (env.func f) body param n visited i)
      (Taint.run (env.rename ρ) ((env.rename ρ).func f) (Node.renameStmts ρ body) param n visited j) := by
  rw [func_rename]
  exact findSpread_rename hρ body param n i j _ _ hi ⟨rfl, rfl, rfl, .nil, .nil⟩

/-! ## Codes of expressions -/

/-- The same diagnostic, apart from names of variables. -/
def DiagRel (ρ : Renaming) (d d' : Diag) : Prop := d'.at_ = d.at_ ∧ ρ.SameMsg d.msg d'.msg

theorem DiagRel.refl (d : Diag) : DiagRel ρ d d := ⟨rfl, .refl⟩
theorem diags_refl (l : List Diag) : Pairwise₂ (DiagRel ρ) l l := Pairwise₂.refl DiagRel.refl l

/-- The same result, and the same diagnostics. -/
def FoundRel {α : Type} (ρ : Renaming) (x x' : α × List Diag) : Prop := x'.1 = x.1 ∧ Pairwise₂ (DiagRel ρ) x.2 x'.2

theorem FoundRel.refl {α : Type} (x : α × List Diag) : FoundRel ρ x x := ⟨rfl, diags_refl _⟩

include hρ in
theorem positionLoop_rename (o : ObjId) : ∀ (gs : List Field) (n : Nat), paramPositionLoop o n (gs.map (Field.rename ρ)) = paramPositionLoop o n gs := by
  intro gs
  induction gs with
  | nil => intro n; rfl
  | cons g gs ih =>
    intro n
    rw [List.map_cons]
    unfold paramPositionLoop
    cases hg : g.names with
    | nil =>
      have : (g.rename ρ).names = [] := by simp [Field.rename, hg]
      rw [this]; exact ih _
    | cons a as =>
      have : (g.rename ρ).names = ρ.ident a :: as.map ρ.ident := by simp [Field.rename, hg]
      rw [this]
      have hidx : (ρ.ident a :: as.map ρ.ident).findIdx? (fun n => n.obj == some o) = (a :: as).findIdx? fun n => n.obj == some o := by
        rw [← List.map_cons, List.findIdx?_map]
        congr 1
        funext i
        simp [ident_obj hρ]
      dsimp only
      rw [hidx]
      cases (a :: as).findIdx? (fun n => n.obj == some o) with
      | some i => rfl
      | none => simp only [List.length_cons, List.length_map]; exact ih _

include hρ in
theorem position_rename {i j : Ident} (h : Alike ρ i j) (type : FuncType) : getParamPosition (type.rename ρ) j = getParamPosition type i := by
  unfold getParamPosition
  rw [h.obj]
  cases i.obj with
  | none => rfl
  | some o => exact positionLoop_rename hρ o _ _

theorem identLoop_rename (t : Nat) : ∀ (gs : List Field) (n : Nat),
    paramIdentLoop t n (gs.map (Field.rename ρ)) = (paramIdentLoop t n gs).map ρ.ident := by
  intro gs
  induction gs with
  | nil => intro n; rfl
  | cons g gs ih =>
    intro n
    rw [List.map_cons]
    unfold paramIdentLoop
    cases hg : g.names with
    | nil =>
      have : (g.rename ρ).names = [] := by simp [Field.rename, hg]
      rw [this]
      dsimp only
      split
      · rfl
      · exact ih _
    | cons a as =>
      have : (g.rename ρ).names = ρ.ident a :: as.map ρ.ident := by simp [Field.rename, hg]
      rw [this]
      simp only [List.length_cons, List.length_map]
      split
      · rw [← List.map_cons, List.getElem?_map]
      · exact ih _

theorem paramIdent_rename (type : FuncType) (n : Nat) : getParamIdent (type.rename ρ) n = (getParamIdent type n).map ρ.ident :=
  identLoop_rename n _ _

theorem import_rename : importErrorConstructorFact (env.rename ρ) f = importErrorConstructorFact env f := by
  unfold importErrorConstructorFact
  rw [func_rename]
  rfl

theorem codeParam_rename {i j : Ident} (h : Alike ρ i j) (p : Nat) :
    Pairwise₂ (DiagRel ρ) (checkIfExprIsErrorCodeParam env f i p) (checkIfExprIsErrorCodeParam (env.rename ρ) f j p) := by
  unfold checkIfExprIsErrorCodeParam
  rw [import_rename]
  split
  · exact .nil
  · exact .cons ⟨h.id, .paramNotDeclared h.shown⟩ .nil

include hρ in
theorem string_rename (e : Node) :
    FoundRel ρ (extractErrorCodeFromStringExpression env f e) (extractErrorCodeFromStringExpression (env.rename ρ) f (e.rename ρ)) := by
  unfold extractErrorCodeFromStringExpression
  rw [rename_id hρ, rename_unparen, func_rename]
  have h1 : (env.rename ρ).value = env.value := rfl
  have h2 : (env.rename ρ).isPrint = env.isPrint := rfl
  rw [h1, h2]
  cases env.value e.id with
  | some v => exact .refl _
  | none =>
    dsimp only
    cases e.unparen with
    | ident i =>
      simp only [Node.rename]
      have : getParamPosition ((env.func f).rename ρ).type (ρ.ident i) = getParamPosition (env.func f).type i :=
        position_rename hρ (alike hρ i) _
      rw [this]
      cases getParamPosition (env.func f).type i with
      | none => exact .refl _
      | some p => exact ⟨rfl, codeParam_rename (alike hρ i) p⟩
    | keyValue id k v =>
      obtain ⟨k', hk⟩ := rename_keyValue (ρ := ρ) id k v
      rw [hk]; exact .refl _
    | _ => exact .refl _

include hρ in
theorem keyed_rename (name : GoString) (es : List Node) :
    findKeyed name (Node.renameList ρ es) = ((findKeyed name es).1, (findKeyed name es).2.map (Node.rename ρ)) := by
  induction es with
  | nil => rfl
  | cons e es ih =>
    rw [Node.renameList]
    cases e with
    | keyValue id k v =>
      cases k with
      | ident i =>
        simp only [Node.rename, findKeyed, hρ.keyName]
        split
        · rfl
        · rw [ih]
      | keyValue id k v =>
        obtain ⟨k', hk⟩ := rename_keyValue (ρ := ρ) id k v
        simp only [Node.rename]
        rw [hk]; rfl
      | _ => rfl
    | _ => rfl

include hρ in
theorem fieldInit_rename (field : ErrorCodeField) : ∀ (e : Node) (a : NodeId),
    findFieldInitIn field a (e.rename ρ) = ((findFieldInitIn field a e).1.map (Node.rename ρ), (findFieldInitIn field a e).2)
  | .paren _ x, a => by simp only [Node.rename, findFieldInitIn]; exact fieldInit_rename field x a
  | .compositeLit _ elts, a => by
    simp only [Node.rename, findFieldInitIn, rename_length, keyed_rename hρ]
    split
    · rfl
    · rcases findKeyed field.name elts with ⟨b, o⟩
      cases o with
      | some v => rfl
      | none =>
        cases b with
        | true => rfl
        | false =>
          simp only [Option.map_none]
          split
          · simp [renameList_eq]
          · rfl
  | .unary _ isAnd x, a => by
    simp only [Node.rename, findFieldInitIn, rename_id hρ]
    split
    · exact fieldInit_rename field x x.id
    · rfl
  | .keyValue id k v, a => by obtain ⟨k', h⟩ := rename_keyValue (ρ := ρ) id k v; rw [h]; rfl
  | .ident _, a | .basicLit _, a | .funcLit .., a | .selector .., a | .index .., a | .typeAssert .., a | .call .., a
  | .assign .., a | .ret .., a | .valueSpec .., a | .typeSwitch .., a | .caseClause .., a | .range .., a | .send .., a | .other .., a => rfl

include hρ in
theorem fieldCode_rename (e : Node) (field : ErrorCodeField) :
    FoundRel ρ (extractFieldErrorCode env f e field) (extractFieldErrorCode (env.rename ρ) f (e.rename ρ) field) := by
  unfold extractFieldErrorCode findFieldInit
  rw [rename_id hρ, fieldInit_rename hρ]
  rcases findFieldInitIn field e.id e with ⟨o, ds⟩
  cases o with
  | none => exact .refl _
  | some v =>
    have := string_rename hρ (env := env) (f := f) v
    exact ⟨this.1, Pairwise₂.append (diags_refl _) this.2⟩

include hρ in
theorem affector_rename (e : Node) :
    FoundRel ρ (extractErrorCodesFromAffector env f e) (extractErrorCodesFromAffector (env.rename ρ) f (e.rename ρ)) := by
  have h1 : checkErrorTypeHasLegibleCode (env.rename ρ) (e.rename ρ) = checkErrorTypeHasLegibleCode env e := by
    unfold checkErrorTypeHasLegibleCode; rw [rename_id hρ]; rfl
  have h2 : (env.rename ρ).getErrorTypeForError ((env.rename ρ).typeOf (e.rename ρ).id) = env.getErrorTypeForError (env.typeOf e.id) := by
    rw [rename_id hρ]; rfl
  unfold extractErrorCodesFromAffector
  rw [h1, h2, rename_id hρ]
  split
  · exact .refl _
  · cases env.getErrorTypeForError (env.typeOf e.id) with
    | none => exact .refl _
    | some et =>
      dsimp only
      cases et.field with
      | none => exact .refl _
      | some field =>
        dsimp only
        have := fieldCode_rename hρ (env := env) (f := f) e field
        revert this
        rcases extractFieldErrorCode env f e field with ⟨c, ds⟩
        rcases extractFieldErrorCode (env.rename ρ) f (e.rename ρ) field with ⟨c', ds'⟩
        rintro ⟨h, h'⟩
        cases h
        cases c with
        | none => exact ⟨rfl, h'⟩
        | some c => exact ⟨rfl, h'⟩

include hρ in
theorem conversion_rename (fn : Node) : extractErrorCodesFromTypeConversion (env.rename ρ) (fn.rename ρ) = extractErrorCodesFromTypeConversion env fn := by
  unfold extractErrorCodesFromTypeConversion
  rw [rename_id hρ]; rfl

include hρ in
theorem constructorCall_rename (at_ : NodeId) (callee : Option Object) (args : Option (List Node)) :
    ERel (FoundRel ρ) (extractErrorCodeFromConstructorCall env f at_ callee args)
      (extractErrorCodeFromConstructorCall (env.rename ρ) f at_ callee (args.map (Node.renameList ρ))) := by
  unfold extractErrorCodeFromConstructorCall
  cases callee with
  | none => exact .ok (.refl _)
  | some o =>
    have : (env.rename ρ).facts = env.facts := rfl
    dsimp only
    rw [this]
    cases env.facts.ctor o with
    | none => exact .ok (.refl _)
    | some p =>
      cases args with
      | none => exact .ok (.refl _)
      | some args =>
        simp only [Option.map_some, renameList_eq, List.getElem?_map]
        cases args[p]? with
        | none => exact .error
        | some a => exact .ok (string_rename hρ a)

include hρ in
theorem codesOf_rename (es : List Node) :
    FoundRel ρ (codesOfExpressions env f es) (codesOfExpressions (env.rename ρ) f (Node.renameList ρ es)) := by
  induction es with
  | nil => exact .refl _
  | cons e es ih =>
    have h := string_rename hρ (env := env) (f := f) e
    rw [Node.renameList]
    unfold codesOfExpressions
    dsimp only
    rw [h.1, ih.1]
    exact ⟨rfl, Pairwise₂.append h.2 ih.2⟩

include hρ in
theorem constructor_rename (body : List Node) (n : Nat) :
    ERel (FoundRel ρ) (extractErrorCodesFromConstructor env f body n)
      (extractErrorCodesFromConstructor (env.rename ρ) f (Node.renameStmts ρ body) n) := by
  unfold extractErrorCodesFromConstructor
  rw [import_rename]
  cases importErrorConstructorFact env f with
  | none => exact .ok (.refl _)
  | some p =>
    dsimp only
    have : getParamIdent ((env.rename ρ).func f).type p = (getParamIdent (env.func f).type p).map ρ.ident := by
      rw [func_rename]; exact paramIdent_rename _ _
    rw [this]
    cases getParamIdent (env.func f).type p with
    | none => exact .error
    | some i =>
      simp only [Option.map_some, ident_obj hρ]
      have h := run_rename hρ (env := env) (f := f) body i.obj n [] (alike hρ i)
      generalize Taint.run env (env.func f) body i.obj n [] i = x at h
      generalize Taint.run (env.rename ρ) _ _ i.obj n [] (ρ.ident i) = y at h
      cases h with
      | error => exact .error
      | ok h =>
        rename_i t t'
        refine .ok ?_
        rw [h.expressions]
        have hc := codesOf_rename hρ (env := env) (f := f) t.expressions
        refine ⟨hc.1, Pairwise₂.append (Pairwise₂.append (h.outOfScope.map fun x y hx => ⟨hx.id, .refl⟩)
          (h.destructs.map fun x y hx => ⟨by rw [hx.source, rename_id hρ], .paramDestructured hx.target.shown⟩)) hc.2⟩

end
end Rename
end Serum
