import Verif.RenameBody

/-! # Renaming variables: conversions -/

namespace Serum
namespace Rename
open Conv

variable {ρ : Renaming} {env : Env} {f : FnId} {info : Info}

theorem withFact_rename : withFact (env.rename ρ) = withFact env := rfl
theorem typeOf_rename : (env.rename ρ).typeOf = env.typeOf := rfl

theorem eachIdx_congr {α β : Type} {g : α → β} {k : Nat → α → List Step} {k' : Nat → β → List Step} (h : ∀ i x, k' i (g x) = k i x) :
    ∀ (l : List α) (i : Nat), eachIdx k' i (l.map g) = eachIdx k i l
  | [], _ => rfl
  | x :: l, i => by
    rw [List.map_cons, eachIdx, eachIdx, h, eachIdx_congr h l]

section
variable (hρ : ρ.Valid)
include hρ

theorem checkExpr_rename (ms : List (GoString × CodeSet)) (t : GoType) (e : Node) : checkExpr (env.rename ρ) ms t (e.rename ρ) = checkExpr env ms t e := by
  unfold checkExpr; rw [rename_id hρ, typeOf_rename]

theorem checkAt_rename (ms : List (GoString × CodeSet)) (t : GoType) (es : List Node) (i : Nat) :
    checkAt (env.rename ρ) ms t (Node.renameList ρ es) i = checkAt env ms t es i := by
  unfold checkAt
  rw [renameList_eq, List.getElem?_map]
  cases es[i]? with
  | none => rfl
  | some e => exact checkExpr_rename hρ ms t e

theorem checkExprs_rename (ms : List (GoString × CodeSet)) (t : GoType) (es : List Node) :
    (Node.renameList ρ es).map (checkExpr (env.rename ρ) ms t) = es.map (checkExpr env ms t) := by
  rw [renameList_eq, List.map_map]
  exact List.map_congr_left fun e _ => checkExpr_rename hρ ms t e

theorem inAssign_rename (l r : List Node) : inAssign (env.rename ρ) info (Node.renameList ρ l) (Node.renameList ρ r) = inAssign env info l r := by
  unfold inAssign
  simp only [rename_length, checkAt_rename hρ, withFact_rename, typeOf_rename]
  rw [renameList_eq l]
  refine eachIdx_congr (fun i x => ?_) l 0
  rw [rename_id hρ]
  congr 1
  funext ms
  split
  · rfl
  · cases r with
    | nil => rfl
    | cons r rs => simp only [Node.renameList, rename_id hρ]

theorem inValueSpec_rename (ns : List Ident) (t : Option NodeId) (vs : List Node) :
    inValueSpec (env.rename ρ) info (ns.map ρ.ident) t (Node.renameList ρ vs) = inValueSpec env info ns t vs := by
  cases vs with
  | nil => rfl
  | cons v vs =>
    cases t with
    | none => rfl
    | some t =>
      simp only [inValueSpec, Node.renameList, withFact_rename, typeOf_rename, List.length_map, List.length_cons, rename_length]
      congr 1
      funext ms
      split
      · exact checkExprs_rename hρ ms _ (v :: vs)
      · rw [rename_id hρ]
        cases env.typeOf v.id with
        | tuple t => exact eachIdx_congr (fun i x => rfl) ns 0
        | _ => rfl

theorem explicit_rename (t : GoType) (as : List Node) : explicit (env.rename ρ) t (Node.renameList ρ as) = explicit env t as := by
  unfold explicit
  rw [withFact_rename]
  congr 1
  funext ms
  match as with
  | [] => rfl
  | [a] => simp only [Node.renameList, checkExpr_rename hρ]
  | _ :: _ :: _ => rfl

theorem drop_rename (n : Nat) (as : List Node) : (Node.renameList ρ as).drop n = Node.renameList ρ (as.drop n) := by
  simp only [renameList_eq, List.map_drop]

theorem inCall_rename (fn : Node) (as : List Node) : inCall (env.rename ρ) info (fn.rename ρ) (Node.renameList ρ as) = inCall env info fn as := by
  unfold inCall
  rw [rename_length, rename_id hρ, typeOf_rename]
  split
  · rfl
  · cases env.typeOf fn.id with
    | signature s =>
      dsimp only
      unfold inFunctionCall
      simp only [withFact_rename, checkAt_rename hρ, drop_rename hρ, checkExprs_rename hρ]
    | _ => exact explicit_rename hρ _ as

theorem inTypeAssert_rename (x : Node) (t : Option NodeId) : inTypeAssert (env.rename ρ) info (x.rename ρ) t = inTypeAssert env info x t := by
  unfold inTypeAssert
  rw [rename_id hρ]
  rfl

theorem inCase_rename (T : GoType) (ts : List Node) : inCase (env.rename ρ) info T (Node.renameList ρ ts) = inCase env info T ts := by
  unfold inCase
  induction ts with
  | nil => rfl
  | cons t ts ih =>
    rw [Node.renameList, List.flatMap_cons, List.flatMap_cons, ih, rename_id hρ]
    rfl

theorem inTypeSwitch_rename (a : Node) (cs : List Node) : inTypeSwitch (env.rename ρ) info (a.rename ρ) (Node.renameList ρ cs) = inTypeSwitch env info a cs := by
  cases a with
  | assign id l r =>
    match r with
    | [] => rfl
    | [r] =>
      cases r with
      | typeAssert id' x t =>
        simp only [Node.rename, Node.renameList, inTypeSwitch]
        rw [rename_id hρ]
        induction cs with
        | nil => rfl
        | cons c cs ih =>
          rw [Node.renameList, List.flatMap_cons, List.flatMap_cons, ih]
          congr 1
          cases c with
          | caseClause id ts b => exact inCase_rename hρ _ ts
          | keyValue id k v => obtain ⟨k', hk⟩ := rename_keyValue (ρ := ρ) id k v; rw [hk]
          | _ => rfl
      | keyValue id k v => 
        obtain ⟨k', hk⟩ := rename_keyValue (ρ := ρ) id k v
        simp only [Node.rename, Node.renameList, inTypeSwitch]
        rw [hk]
      | _ => rfl
    | _ :: _ :: _ => rfl
  | keyValue id k v => obtain ⟨k', hk⟩ := rename_keyValue (ρ := ρ) id k v; rw [hk]; rfl
  | _ => rfl

theorem inIndex_rename (x y : Node) : inIndex (env.rename ρ) info (x.rename ρ) (y.rename ρ) = inIndex env info x y := by
  unfold inIndex
  rw [rename_id hρ, typeOf_rename, withFact_rename]
  simp only [checkExpr_rename hρ]

theorem keyedValue_rename (ms : List (GoString × CodeSet)) (n : GoString) (t : GoType) : ∀ es : List Node,
    keyedValue (env.rename ρ) ms n t (Node.renameList ρ es) = keyedValue env ms n t es
  | [] => rfl
  | e :: es => by
    rw [Node.renameList]
    cases e with
    | keyValue id k v =>
      cases k with
      | ident k =>
        simp only [Node.rename, keyedValue]
        rw [hρ.keyName, checkExpr_rename hρ, keyedValue_rename ms n t es]
      | keyValue id k v' => cases k <;> rfl
      | _ => rfl
    | _ => rfl

omit hρ in
theorem isKeyed_rename (e : Node) : isKeyed (e.rename ρ) = isKeyed e := by
  cases e with
  | keyValue id k v => obtain ⟨k', hk⟩ := rename_keyValue (ρ := ρ) id k v; rw [hk]; rfl
  | _ => rfl

theorem inStructLit_rename (es : List Node) (fields : List (GoString × GoType)) :
    inStructLit (env.rename ρ) (Node.renameList ρ es) fields = inStructLit env es fields := by
  cases es with
  | nil => rfl
  | cons e es =>
    show eachIdx (fun i field => withFact (env.rename ρ) field.2 fun ms => if isKeyed (e.rename ρ) then
        keyedValue (env.rename ρ) ms field.1 field.2 (Node.renameList ρ (e :: es)) else [checkAt (env.rename ρ) ms field.2 (Node.renameList ρ (e :: es)) i]) 0 fields = _
    simp only [isKeyed_rename, withFact_rename, keyedValue_rename hρ, checkAt_rename hρ]
    rfl

omit hρ in
theorem elementValue_rename (e : Node) : elementValue (e.rename ρ) = (elementValue e).rename ρ := by
  cases e with
  | keyValue id k v => obtain ⟨k', hk⟩ := rename_keyValue (ρ := ρ) id k v; rw [hk]; rfl
  | _ => rfl

theorem inValues_rename (es : List Node) (t : GoType) : inValues (env.rename ρ) (Node.renameList ρ es) t = inValues env es t := by
  unfold inValues
  rw [withFact_rename, renameList_eq]
  simp only [List.map_map]
  congr 1
  funext ms
  refine List.map_congr_left fun e _ => ?_
  show checkExpr _ _ _ (elementValue (e.rename ρ)) = _
  rw [elementValue_rename, checkExpr_rename hρ]

theorem inKeys_rename (es : List Node) (t : GoType) : inKeys (env.rename ρ) (Node.renameList ρ es) t = inKeys env es t := by
  unfold inKeys
  rw [withFact_rename, renameList_eq]
  simp only [List.map_map]
  congr 1
  funext ms
  refine List.map_congr_left fun e _ => ?_
  show (match e.rename ρ with | .keyValue _ k _ => checkExpr (env.rename ρ) ms t k | _ => _) = _
  cases e with
  | keyValue id k v =>
    cases k with
    | ident k =>
      simp only [Node.rename, checkExpr, Node.id, hρ.keyId]
      rfl
    | _ => exact checkExpr_rename hρ ms t _
  | _ => rfl

theorem inComposite_rename (id : NodeId) (es : List Node) : inComposite (env.rename ρ) info id (Node.renameList ρ es) = inComposite env info id es := by
  unfold inComposite
  rw [rename_length, typeOf_rename]
  simp only [inStructLit_rename hρ, inValues_rename hρ, inKeys_rename hρ]

theorem resultFields_rename (rs : List Node) : ∀ (gs : List Field) (i : Nat),
    resultFields (env.rename ρ) (Node.renameList ρ rs) i (gs.map (Field.rename ρ)) = resultFields env rs i gs
  | [], _ => rfl
  | g :: gs, i => by
    have h : fieldWidth (g.rename ρ) = fieldWidth g := by unfold fieldWidth Field.rename; simp only [List.length_map]
    rw [List.map_cons, resultFields, resultFields, h, resultFields_rename rs gs]
    simp only [checkAt_rename hρ, withFact_rename]
    rfl

theorem inReturn_rename (rs : List Node) (t : FuncType) : inReturn (env.rename ρ) (Node.renameList ρ rs) (t.rename ρ) = inReturn env rs t := by
  unfold inReturn
  rw [rename_length]
  split
  · rfl
  · have : (t.rename ρ).results = t.results.map (List.map (Field.rename ρ)) := rfl
    rw [this]
    cases t.results with
    | none => rfl
    | some gs => exact resultFields_rename hρ rs gs 0

theorem inRangeKey_rename (k : Option Node) (x : Node) : inRangeKey (env.rename ρ) info (Node.renameOption ρ k) (x.rename ρ) = inRangeKey env info k x := by
  cases k with
  | none => rfl
  | some k => simp only [Node.renameOption, inRangeKey, rename_id hρ]; rfl

theorem inRangeValue_rename (k v : Option Node) (x : Node) :
    inRangeValue (env.rename ρ) info (Node.renameOption ρ k) (Node.renameOption ρ v) (x.rename ρ) = inRangeValue env info k v x := by
  cases k with
  | none => cases v <;> rfl
  | some k =>
    cases v with
    | none => rfl
    | some v => simp only [Node.renameOption, inRangeValue, rename_id hρ]; rfl

theorem inSend_rename (c v : Node) : inSend (env.rename ρ) info (c.rename ρ) (v.rename ρ) = inSend env info c v := by
  unfold inSend
  rw [rename_id hρ, typeOf_rename, withFact_rename]
  simp only [checkExpr_rename hρ]

theorem atNode_rename (w : Option FuncType) (n : Node) :
    atNode (env.rename ρ) info (w.map (FuncType.rename ρ)) (n.rename ρ) = atNode env info w n := by
  cases n with
  | assign id l r => exact inAssign_rename hρ l r
  | valueSpec id ns t vs => exact inValueSpec_rename hρ ns t vs
  | call id fn as => exact inCall_rename hρ fn as
  | typeAssert id x t => exact inTypeAssert_rename hρ x t
  | typeSwitch id s a cs => exact inTypeSwitch_rename hρ a cs
  | index id x y => exact inIndex_rename hρ x y
  | compositeLit id es => exact inComposite_rename hρ id es
  | ret id rs =>
    cases w with
    | none => rfl
    | some t => exact inReturn_rename hρ rs t
  | range id k v x b =>
    simp only [Node.rename, atNode, inRangeKey_rename hρ, inRangeValue_rename hρ]
  | send id c v => exact inSend_rename hρ c v
  | keyValue id k v => obtain ⟨k', hk⟩ := rename_keyValue (ρ := ρ) id k v; rw [hk]; rfl
  | _ => rfl

end

/-- The same event. -/
inductive EventRel (ρ : Renaming) : Event → Event → Prop where
  | push {n m} : NodeRel ρ n m → EventRel ρ (.push n) (.push m)
  | pop {n m} : NodeRel ρ n m → EventRel ρ (.pop n) (.pop m)
  | enter {g} : EventRel ρ (.enter g) (.enter g)
  | leave {g} : EventRel ρ (.leave g) (.leave g)

/-- Nothing is done for this node. -/
def C (env : Env) (info : Info) (n : Node) : Prop := n.Quiet ∧ ∀ w, atNode env info w n = []

/-- The same events, apart from those for nodes which are left out. -/
inductive EventsRel (ρ : Renaming) (C : Node → Prop) : List Event → List Event → Prop where
  | nil : EventsRel ρ C [] []
  | cons {a b l l'} : EventRel ρ a b → EventsRel ρ C l l' → EventsRel ρ C (a :: l) (b :: l')
  | push {n l l'} : C n → EventsRel ρ C l l' → EventsRel ρ C (.push n :: l) l'
  | pop {n l l'} : C n → EventsRel ρ C l l' → EventsRel ρ C (.pop n :: l) l'

variable {C' : Node → Prop}

theorem EventsRel.append {a b a' b' : List Event} (h : EventsRel ρ C' a a') (k : EventsRel ρ C' b b') : EventsRel ρ C' (a ++ b) (a' ++ b') := by
  induction h with
  | nil => exact k
  | cons h _ ih => exact .cons h ih
  | push h _ ih => exact .push h ih
  | pop h _ ih => exact .pop h ih

theorem EventsRel.skips {b b' : List Event} (k : EventsRel ρ C' b b') : ∀ {a : List Event},
    (∀ e ∈ a, ∃ n, C' n ∧ (e = .push n ∨ e = .pop n)) → EventsRel ρ C' (a ++ b) b'
  | [], _ => k
  | e :: a, h => by
    have ih := EventsRel.skips k (a := a) fun m hm => h m (List.mem_cons_of_mem _ hm)
    obtain ⟨n, hn, rfl | rfl⟩ := h e (List.mem_cons_self ..)
    · exact .push hn ih
    · exact .pop hn ih

theorem identEvents_within {e : Event} {ns : List Ident} (h : e ∈ ns.flatMap fun n => [Event.push (.ident n), Event.pop (.ident n)]) :
    ∃ m ∈ ns.map Node.ident, e = .push m ∨ e = .pop m := by
  rw [List.mem_flatMap] at h
  obtain ⟨n, hn, h⟩ := h
  simp only [List.mem_cons, List.not_mem_nil, or_false] at h
  exact ⟨.ident n, List.mem_map_of_mem hn, h⟩

/-- Events are about parts. -/
theorem events_within : ∀ n : Node, ∀ e ∈ events n, ∃ m ∈ Node.inspect (fun _ => true) n, e = .push m ∨ e = .pop m := by
  refine fun n => Node.rec (motive_1 := fun n => ∀ e ∈ events n, ∃ m ∈ Node.inspect (fun _ => true) n, e = .push m ∨ e = .pop m)
    (motive_2 := fun l => ∀ e ∈ eventsList l, ∃ m ∈ Node.inspectList (fun _ => true) l, e = .push m ∨ e = .pop m)
    (motive_3 := fun o => ∀ e ∈ eventsOption o, ∃ m ∈ Node.inspectOption (fun _ => true) o, e = .push m ∨ e = .pop m)
    ?_ ?_ ?_ ?_ ?_ ?_ ?_ ?_ ?_ ?_ ?_ ?_ ?_ ?_ ?_ ?_ ?_ ?_ ?_ ?_ ?_ ?_ ?_ n <;>
  · intros
    simp only [events, eventsList, eventsOption, Node.inspect, Node.inspectList, Node.inspectOption, if_true, List.mem_cons, List.mem_append,
      List.not_mem_nil, or_false] at *
    try grind [identEvents_within]

theorem around_rel {n m : Node} (hn : NodeRel ρ n m) {l l' : List Event} (h : EventsRel ρ (C env info) l l') :
    EventsRel ρ (C env info) (.push n :: (l ++ [.pop n])) (.push m :: (l' ++ [.pop m])) :=
  .cons (.push hn) (h.append (.cons (.pop hn) .nil))

theorem identEvents_rel (ns : List Ident) : EventsRel ρ (C env info) (ns.flatMap fun n => [.push (.ident n), .pop (.ident n)])
    ((ns.map ρ.ident).flatMap fun n => [.push (.ident n), .pop (.ident n)]) := by
  induction ns with
  | nil => exact .nil
  | cons n ns ih => exact .cons (.push .ident) (.cons (.pop .ident) ih)

section
variable (hρ : ρ.Valid) (hc : ∀ n, ρ.drop n = true → ∀ m, Within (fun _ => true) m n → ∀ w, atNode env info w m = [])
include hρ hc

theorem dropped_rel {n : Node} (hd : ρ.drop n = true) {b b' : List Event} (k : EventsRel ρ (C env info) b b') :
    EventsRel ρ (C env info) (events n ++ b) b' :=
  k.skips fun e he => by
    obtain ⟨m, hm, h⟩ := events_within n e he
    have hw := (mem_inspect _ m n).1 hm
    exact ⟨m, ⟨hρ.quiet n hd m hw, hc n hd m hw⟩, h⟩

theorem events_rel : ∀ n : Node, EventsRel ρ (C env info) (events n) (events (n.rename ρ)) := by
  refine fun n => Node.rec (motive_1 := fun n => EventsRel ρ (C env info) (events n) (events (n.rename ρ)))
    (motive_2 := fun l => EventsRel ρ (C env info) (eventsList l) (eventsList (Node.renameList ρ l)) ∧
      EventsRel ρ (C env info) (eventsList l) (eventsList (Node.renameStmts ρ l)))
    (motive_3 := fun o => EventsRel ρ (C env info) (eventsOption o) (eventsOption (Node.renameOption ρ o)))
    ?_ ?_ ?_ ?_ ?_ ?_ ?_ ?_ ?_ ?_ ?_ ?_ ?_ ?_ ?_ ?_ ?_ ?_ ?_ ?_ ?_ ?_ ?_ n
  case refine_1 => intro i; exact around_rel .same .nil
  case refine_2 => intro i; exact around_rel .same .nil
  case refine_3 => intro id elts ih; simp only [Node.rename, events]; exact around_rel .same ih.1
  case refine_4 =>
    intro id k v ihk ihv
    cases k with
    | ident k => simp only [Node.rename, events]; exact around_rel .same (EventsRel.append (.cons (.push .ident) (.cons (.pop .ident) .nil)) ihv)
    | _ =>
      conv => arg 3; simp only [Node.rename]; rw [events]
      rw [events]
      exact around_rel .same (EventsRel.append ihk ihv)
  case refine_5 => intro id g t b ih; simp only [Node.rename, events]; exact around_rel .same ih.2
  case refine_6 => intro id x ih; simp only [Node.rename, events]; exact around_rel .same ih
  case refine_7 =>
    intro id x s ih; simp only [Node.rename, events]
    exact around_rel .same (EventsRel.append ih (.cons (.push .ident) (.cons (.pop .ident) .nil)))
  case refine_8 => intro id x y ih ih'; simp only [Node.rename, events]; exact around_rel .same (EventsRel.append ih ih')
  case refine_9 => intro id x t ih; simp only [Node.rename, events]; exact around_rel .same ih
  case refine_10 => intro id x y ih ih'; simp only [Node.rename, events]; exact around_rel .same (EventsRel.append ih ih'.1)
  case refine_11 => intro id x t ih; simp only [Node.rename, events]; exact around_rel .same ih
  case refine_12 => intro id x y ih ih'; simp only [Node.rename, events]; exact around_rel .same (EventsRel.append ih.1 ih'.1)
  case refine_13 => intro id x ih; simp only [Node.rename, events]; exact around_rel .same ih.1
  case refine_14 =>
    intro id ns t vs ih; simp only [Node.rename, events]
    exact around_rel .same (EventsRel.append (identEvents_rel ns) ih.1)
  case refine_15 =>
    intro id s a cs ih ih' ih''; simp only [Node.rename, events]
    exact around_rel .same (EventsRel.append ih.1 (EventsRel.append ih' ih''.1))
  case refine_16 => intro id x y ih ih'; simp only [Node.rename, events]; exact around_rel .same (EventsRel.append ih.1 ih'.2)
  case refine_17 =>
    intro id k v x b ih ih' ih'' ih'''; simp only [Node.rename, events]
    exact around_rel .same (EventsRel.append (EventsRel.append ih ih') (EventsRel.append ih'' ih'''.2))
  case refine_18 => intro id x y ih ih'; simp only [Node.rename, events]; exact around_rel .same (EventsRel.append ih ih')
  case refine_19 => intro id x ih; simp only [Node.rename, events]; exact around_rel .same ih.2
  case refine_20 => exact ⟨.nil, .nil⟩
  case refine_21 =>
    intro n ns ih ih'
    refine ⟨EventsRel.append ih ih'.1, ?_⟩
    unfold Node.renameStmts
    split
    · rename_i hd
      exact dropped_rel hρ hc hd ih'.2
    · exact EventsRel.append ih ih'.2
  case refine_22 => exact .nil
  case refine_23 => intro n ih; exact ih

theorem eventsList_rel (l : List Node) : EventsRel ρ (C env info) (eventsList l) (eventsList (Node.renameStmts ρ l)) := by
  induction l with
  | nil => exact .nil
  | cons n l ih =>
    unfold Node.renameStmts
    split
    · rename_i hd
      exact dropped_rel hρ hc hd ih
    · exact EventsRel.append (events_rel hρ hc n) ih

end

/-- The enclosing functions, with other names for their parameters. -/
def _root_.Serum.Conv.Walk.rename (ρ : Renaming) (w : Walk) : Walk := ⟨w.current.map (FuncType.rename ρ), w.lits.map (FuncType.rename ρ)⟩

theorem within_rename (w : Walk) : (w.rename ρ).within_ = w.within_.map (FuncType.rename ρ) := by
  obtain ⟨c, l⟩ := w
  cases l <;> rfl

theorem append_congr {α : Type} {a b c d : List α} (h : a = b) (k : c = d) : a ++ c = b ++ d := by rw [h, k]

theorem walk_rename (hρ : ρ.Valid) {es es' : List Event} (h : EventsRel ρ (C env info) es es') : ∀ w : Walk,
    walk (env.rename ρ) info (w.rename ρ) es' = walk env info w es := by
  induction h with
  | nil => intro w; rfl
  | @push n es es' hn _ ih =>
    intro w
    rw [ih w]
    have : walk env info w (.push n :: es) = atNode env info w.within_ n ++ walk env info w es := by
      cases n <;> first | exact hn.1.elim | rfl
    rw [this, hn.2, List.nil_append]
  | @pop n es es' hn _ ih =>
    intro w
    rw [ih w]
    have : walk env info w (.pop n :: es) = walk env info w es := by
      cases n <;> first | exact hn.1.elim | rfl
    rw [this]
  | @cons e e' es es' he _ ih =>
    intro w
    have hl : (w.rename ρ).lits.length = w.lits.length := List.length_map ..
    cases he with
    | @enter f =>
      simp only [walk]
      rw [hl, func_rename]
      split
      · rfl
      · exact ih { w with current := some (env.func f).type }
    | leave =>
      simp only [walk]
      rw [hl]
      split
      · rfl
      · exact ih { w with current := none }
    | @push n m hn =>
      cases hn with
      | ident => exact ih w
      | same =>
        have hat := atNode_rename (env := env) (info := info) hρ w.within_ n
        simp only [walk]
        cases n with
        | funcLit id g t b => exact append_congr (atNode_rename hρ (some t) (.funcLit id g t b)) (ih ⟨w.current, t :: w.lits⟩)
        | keyValue id k v =>
          obtain ⟨k', hk⟩ := rename_keyValue (ρ := ρ) id k v
          rw [hk] at hat ⊢
          simp only
          rw [within_rename, hat, ih]
        | _ =>
          simp only [Node.rename, within_rename] at hat ⊢
          exact append_congr hat (ih w)
    | @pop n m hn =>
      cases hn with
      | ident =>
        simp only [walk]
        exact ih w
      | same =>
        obtain ⟨c, l⟩ := w
        cases n with
        | funcLit id g t b =>
          cases l with
          | nil => rfl
          | cons t' l => exact ih ⟨c, l⟩
        | keyValue id k v => obtain ⟨k', hk⟩ := rename_keyValue (ρ := ρ) id k v; rw [hk]; simp only [walk]; exact ih _
        | _ => simp only [Node.rename, walk]; exact ih _

/-- The steps for conversions are the same. -/
theorem steps_rename (hρ : ρ.Valid) (hc : ∀ n, ρ.drop n = true → ∀ m, Within (fun _ => true) m n → ∀ w, atNode env info w m = []) (top : List TopDecl) : steps (env.rename ρ) info (top.map (TopDecl.rename ρ)) = steps env info top := by
  unfold steps
  refine walk_rename hρ ?_ ⟨none, []⟩
  induction top with
  | nil => exact .nil
  | cons t top ih =>
    refine EventsRel.append ?_ ih
    cases t with
    | node n => exact events_rel hρ hc n
    | func f =>
      refine .cons .enter (EventsRel.append ?_ (.cons .leave .nil))
      rw [func_rename]
      simp only [FuncDef.rename]
      cases (env.func f).body with
      | none => exact .nil
      | some b => exact eventsList_rel hρ hc b

end Rename
end Serum
