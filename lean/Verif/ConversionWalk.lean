import Verif.ConversionLemmas

/-! # The walk over a package visits every node, with the function around it -/

namespace Serum
namespace Conv
open ConvSpec

variable {env : Env} {info : Info} {st : Step}

/-- A step at some node of one of the given nodes. -/
def StepsIn (env : Env) (info : Info) (w : Option FuncType) (ns : List Node) (st : Step) : Prop :=
  ∃ c ∈ ns, ∃ m w', Around w c m w' ∧ st ∈ atNode env info w' m

/-- Events that stand for the given nodes. -/
def Covers (env : Env) (info : Info) (st : Step) (es : List Event) (ns : List Node) : Prop :=
  ∀ (s : Walk) (rest : List Event), st ∈ walk env info s (es ++ rest) ↔
    StepsIn env info s.within_ ns st ∨ st ∈ walk env info s rest

theorem covers_nil : Covers env info st [] [] := by intro s rest; simp [StepsIn]

theorem Covers.append {es₁ es₂ : List Event} {ns₁ ns₂ : List Node} (h₁ : Covers env info st es₁ ns₁)
    (h₂ : Covers env info st es₂ ns₂) : Covers env info st (es₁ ++ es₂) (ns₁ ++ ns₂) := by
  intro s rest
  rw [List.append_assoc, h₁ s, h₂ s]
  simp only [StepsIn, List.mem_append, or_and_right, exists_or, or_assoc]

def NotLit (n : Node) : Prop := ∀ id f t b, n ≠ .funcLit id f t b

theorem around_notLit {n m : Node} {w w' : Option FuncType} (hn : NotLit n) :
    Around w n m w' ↔ (m = n ∧ w' = w) ∨ ∃ c ∈ n.children, Around w c m w' := by
  constructor
  · intro h
    cases h with
    | self => exact .inl ⟨rfl, rfl⟩
    | lit => exact absurd rfl (hn _ _ _ _)
    | inside _ hc h => exact .inr ⟨_, hc, h⟩
    | body => exact absurd rfl (hn _ _ _ _)
  · rintro (⟨rfl, rfl⟩ | ⟨c, hc, h⟩)
    · exact .self hn
    · exact .inside hn hc h

theorem around_lit {id : NodeId} {f : FnId} {t : FuncType} {b : List Node} {m : Node} {w w' : Option FuncType} :
    Around w (.funcLit id f t b) m w' ↔ (m = .funcLit id f t b ∧ w' = some t) ∨ ∃ c ∈ b, Around (some t) c m w' := by
  constructor
  · intro h
    cases h with
    | self hn => exact absurd rfl (hn _ _ _ _)
    | lit => exact .inl ⟨rfl, rfl⟩
    | inside hn => exact absurd rfl (hn _ _ _ _)
    | body hc h => exact .inr ⟨_, hc, h⟩
  · rintro (⟨rfl, rfl⟩ | ⟨c, hc, h⟩)
    · exact .lit
    · exact .body hc h

theorem walk_push {n : Node} (hn : NotLit n) (s : Walk) (es : List Event) :
    walk env info s (.push n :: es) = atNode env info s.within_ n ++ walk env info s es := by
  cases n with
  | funcLit => exact absurd rfl (hn _ _ _ _)
  | _ => simp [walk]

theorem walk_pop {n : Node} (hn : NotLit n) (s : Walk) (es : List Event) :
    walk env info s (.pop n :: es) = walk env info s es := by
  cases n with
  | funcLit => exact absurd rfl (hn _ _ _ _)
  | _ => simp [walk]

theorem covers_node {n : Node} (hn : NotLit n) {es : List Event} (h : Covers env info st es n.children) :
    Covers env info st (.push n :: (es ++ [.pop n])) [n] := by
  intro s rest
  rw [List.cons_append, List.append_assoc, walk_push hn, List.mem_append, h s, List.cons_append, List.nil_append,
    walk_pop hn, ← or_assoc]
  refine or_congr ?_ Iff.rfl
  simp only [StepsIn, List.mem_singleton, exists_eq_left]
  constructor
  · rintro (h | ⟨c, hc, m, w', hm, h⟩)
    · exact ⟨n, _, .self hn, h⟩
    · exact ⟨m, w', .inside hn hc hm, h⟩
  · rintro ⟨m, w', hm, h⟩
    rcases (around_notLit hn).1 hm with ⟨rfl, rfl⟩ | ⟨c, hc, hm⟩
    · exact .inl h
    · exact .inr ⟨c, hc, m, w', hm, h⟩

theorem covers_lit {id : NodeId} {f : FnId} {t : FuncType} {b : List Node} {es : List Event} (h : Covers env info st es b) :
    Covers env info st (.push (.funcLit id f t b) :: (es ++ [.pop (.funcLit id f t b)])) [.funcLit id f t b] := by
  intro s rest
  simp only [List.cons_append, List.append_assoc, walk, List.mem_append]
  rw [h ⟨s.current, t :: s.lits⟩]
  simp only [List.nil_append, walk, ← or_assoc]
  refine or_congr ?_ Iff.rfl
  simp only [StepsIn, List.mem_singleton, exists_eq_left, Walk.within_]
  constructor
  · rintro (h | ⟨c, hc, m, w', hm, h⟩)
    · exact ⟨_, _, .lit, h⟩
    · exact ⟨m, w', .body hc hm, h⟩
  · rintro ⟨m, w', hm, h⟩
    rcases around_lit.1 hm with ⟨rfl, rfl⟩ | ⟨c, hc, hm⟩
    · exact .inl h
    · exact .inr ⟨c, hc, m, w', hm, h⟩

theorem covers_ident (i : Ident) : Covers env info st [.push (.ident i), .pop (.ident i)] [.ident i] :=
  covers_node (n := .ident i) (by intro; simp) (es := []) (by simpa [Node.children] using covers_nil)

theorem covers_idents : ∀ (ns : List Ident),
    Covers env info st (ns.flatMap (fun n => [.push (.ident n), .pop (.ident n)])) (ns.map .ident)
  | [] => covers_nil
  | i :: ns => by
    have := (covers_ident i).append (covers_idents ns) (env := env) (info := info) (st := st)
    simpa using this

mutual
theorem covers_events : ∀ n : Node, Covers env info st (events n) [n]
  | .ident i => by rw [events]; exact covers_ident i
  | .basicLit i => by
    rw [events]
    exact covers_node (n := .basicLit i) (by intro; simp) (es := []) (by simpa [Node.children] using covers_nil)
  | .compositeLit i es => by
    rw [events]; exact covers_node (by intro; simp) (covers_eventsList es)
  | .keyValue i k v => by
    rw [events]; exact covers_node (by intro; simp) ((covers_events k).append (covers_events v))
  | .funcLit i f t b => by rw [events]; exact covers_lit (covers_eventsList b)
  | .paren i x => by rw [events]; exact covers_node (by intro; simp) (covers_events x)
  | .selector i x s => by
    rw [events]; exact covers_node (by intro; simp) ((covers_events x).append (covers_ident s))
  | .index i x y => by
    rw [events]; exact covers_node (by intro; simp) ((covers_events x).append (covers_events y))
  | .typeAssert i x t => by rw [events]; exact covers_node (by intro; simp) (covers_events x)
  | .call i f as => by
    rw [events]; exact covers_node (by intro; simp) ((covers_events f).append (covers_eventsList as))
  | .unary i a x => by rw [events]; exact covers_node (by intro; simp) (covers_events x)
  | .assign i l r => by
    rw [events]; exact covers_node (by intro; simp) ((covers_eventsList l).append (covers_eventsList r))
  | .ret i rs => by rw [events]; exact covers_node (by intro; simp) (covers_eventsList rs)
  | .valueSpec i ns t vs => by
    rw [events]; exact covers_node (by intro; simp) ((covers_idents ns).append (covers_eventsList vs))
  | .typeSwitch i s a cs => by
    rw [events]
    exact covers_node (by intro; simp)
      ((covers_eventsList s).append ((covers_events a).append (covers_eventsList cs)))
  | .caseClause i ts b => by
    rw [events]; exact covers_node (by intro; simp) ((covers_eventsList ts).append (covers_eventsList b))
  | .range i k v x b => by
    rw [events]
    exact covers_node (by intro; simp)
      (((covers_eventsOption k).append (covers_eventsOption v)).append ((covers_events x).append (covers_eventsList b)))
  | .send i c v => by
    rw [events]; exact covers_node (by intro; simp) ((covers_events c).append (covers_events v))
  | .other i cs => by rw [events]; exact covers_node (by intro; simp) (covers_eventsList cs)

theorem covers_eventsList : ∀ ns : List Node, Covers env info st (eventsList ns) ns
  | [] => covers_nil
  | n :: ns => by rw [eventsList]; exact (covers_events n).append (covers_eventsList ns)

theorem covers_eventsOption : ∀ o : Option Node, Covers env info st (eventsOption o) o.toList
  | none => covers_nil
  | some n => by rw [eventsOption]; exact covers_events n
end

/-- The steps of a package are those at its nodes. -/
theorem mem_steps (decls : List TopDecl) :
    st ∈ steps env info decls ↔ ∃ m w, InPackage env decls m w ∧ st ∈ atNode env info w m := by
  have key : ∀ (ds : List TopDecl), st ∈ walk env info ⟨none, []⟩ (ds.flatMap (topEvents env)) ↔
      ∃ m w, InPackage env ds m w ∧ st ∈ atNode env info w m := by
    intro ds
    induction ds with
    | nil => simp [walk, InPackage]
    | cons d ds ih =>
      have hsplit : ∀ (P : Prop), (P ↔ ∃ m w, InPackage env [d] m w ∧ st ∈ atNode env info w m) →
          ((P ∨ st ∈ walk env info ⟨none, []⟩ (ds.flatMap (topEvents env))) ↔
            ∃ m w, InPackage env (d :: ds) m w ∧ st ∈ atNode env info w m) := by
        intro P hP
        rw [hP, ih]
        constructor
        · rintro (⟨m, w, h | h, hs⟩ | ⟨m, w, h | h, hs⟩)
          · obtain ⟨f, body, n, h1, h2⟩ := h
            exact ⟨m, w, .inl ⟨f, body, n, by simp at h1; simp [h1], h2⟩, hs⟩
          · obtain ⟨n, h1, h2⟩ := h
            exact ⟨m, w, .inr ⟨n, by simp at h1; simp [h1], h2⟩, hs⟩
          · obtain ⟨f, body, n, h1, h2⟩ := h
            exact ⟨m, w, .inl ⟨f, body, n, by simp [h1], h2⟩, hs⟩
          · obtain ⟨n, h1, h2⟩ := h
            exact ⟨m, w, .inr ⟨n, by simp [h1], h2⟩, hs⟩
        · rintro ⟨m, w, h | h, hs⟩
          · obtain ⟨f, body, n, h1, h2⟩ := h
            rcases List.mem_cons.1 h1 with h1 | h1
            · exact .inl ⟨m, w, .inl ⟨f, body, n, by simp [h1], h2⟩, hs⟩
            · exact .inr ⟨m, w, .inl ⟨f, body, n, h1, h2⟩, hs⟩
          · obtain ⟨n, h1, h2⟩ := h
            rcases List.mem_cons.1 h1 with h1 | h1
            · exact .inl ⟨m, w, .inr ⟨n, by simp [h1], h2⟩, hs⟩
            · exact .inr ⟨m, w, .inr ⟨n, h1, h2⟩, hs⟩
      cases d with
      | node n =>
        rw [List.flatMap_cons, topEvents, covers_events n]
        refine hsplit _ ?_
        simp only [StepsIn, List.mem_singleton, exists_eq_left, InPackage, Walk.within_]
        constructor
        · rintro ⟨m, w, h, hs⟩; exact ⟨m, w, .inr ⟨n, rfl, h⟩, hs⟩
        · rintro ⟨m, w, h | ⟨n', hn, h⟩, hs⟩
          · obtain ⟨f, body, n', h1, -⟩ := h; cases h1
          · cases hn; exact ⟨m, w, h, hs⟩
      | func f =>
        rw [List.flatMap_cons, topEvents]
        simp only [List.cons_append, List.append_assoc, walk, List.length_nil, ne_eq, not_true, if_false]
        rw [covers_eventsList]
        simp only [List.nil_append, walk, List.length_nil, ne_eq, not_true, if_false]
        refine hsplit _ ?_
        simp only [StepsIn, InPackage, Walk.within_]
        constructor
        · rintro ⟨n, hn, m, w, h, hs⟩
          cases hb : (env.func f).body with
          | none => rw [hb] at hn; simp at hn
          | some body =>
            rw [hb] at hn
            exact ⟨m, w, .inl ⟨f, body, n, by simp, hb, hn, h⟩, hs⟩
        · rintro ⟨m, w, ⟨f', body, n, h1, h2, h3, h4⟩ | ⟨n, h1, -⟩, hs⟩
          · simp at h1
            subst h1
            exact ⟨n, by rw [h2]; exact h3, m, w, h4, hs⟩
          · simp at h1
  exact key decls

end Conv
end Serum
