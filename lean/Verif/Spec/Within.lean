import Verif.Ast

/-! # Specification: the parts of a syntax tree -/

namespace Serum

/-- The direct parts of a node, in source order. -/
def Node.children : Node → List Node
  | .ident _ | .basicLit _ => []
  | .compositeLit _ es => es
  | .keyValue _ k v => [k, v]
  | .funcLit _ _ _ b => b
  | .paren _ x => [x]
  | .selector _ x s => [x, .ident s]
  | .index _ x y => [x, y]
  | .typeAssert _ x _ => [x]
  | .call _ f as => f :: as
  | .unary _ _ x => [x]
  | .assign _ l r => l ++ r
  | .ret _ rs => rs
  | .valueSpec _ ns _ vs => ns.map .ident ++ vs
  | .typeSwitch _ s a cs => s ++ a :: cs
  | .caseClause _ ts b => ts ++ b
  | .range _ k v x b => k.toList ++ v.toList ++ x :: b
  | .send _ c v => [c, v]
  | .other _ cs => cs

/-- `m` is `n` or a part of `n`, reached only through nodes whose parts are looked at (`go`). -/
inductive Within (go : Node → Bool) (m : Node) : Node → Prop where
  | self : Within go m m
  | child {n c} : go n = true → c ∈ n.children → Within go m c → Within go m n

/-- `m` occurs in a list of nodes. -/
def WithinList (go : Node → Bool) (m : Node) (ns : List Node) : Prop := ∃ n ∈ ns, Within go m n

/-- `m` occurs somewhere in the block, function literals included. -/
def Occurs (m : Node) (block : List Node) : Prop := WithinList (fun _ => true) m block

/-- The statements of a function itself: not those of the function literals in it.  (A return statement contains no other statements,
except through literals.) -/
def ofFunction : Node → Bool
  | .funcLit .. | .ret .. => false
  | _ => true

/-- Everything outside of assignment statements. -/
def outsideAssignments : Node → Bool
  | .assign .. => false
  | _ => true

theorem within_iff (go : Node → Bool) (m n : Node) :
    Within go m n ↔ m = n ∨ (go n = true ∧ ∃ c ∈ n.children, Within go m c) := by
  constructor
  · intro h
    cases h with
    | self => exact .inl rfl
    | child hg hc hw => exact .inr ⟨hg, _, hc, hw⟩
  · rintro (rfl | ⟨hg, c, hc, hw⟩)
    · exact .self
    · exact .child hg hc hw

theorem within_ident (go : Node → Bool) (m : Node) (i : Ident) : Within go m (.ident i) ↔ m = .ident i := by
  rw [within_iff]; simp [Node.children]

mutual
theorem mem_inspect (go : Node → Bool) (m : Node) : ∀ n, m ∈ Node.inspect go n ↔ Within go m n
  | .ident i => by
    simp only [Node.inspect, List.mem_singleton]
    exact ⟨fun h => h ▸ .self, fun h => by cases h with | self => rfl | child _ hc _ => simp [Node.children] at hc⟩
  | .basicLit i => by
    simp only [Node.inspect, List.mem_singleton]
    exact ⟨fun h => h ▸ .self, fun h => by cases h with | self => rfl | child _ hc _ => simp [Node.children] at hc⟩
  | .compositeLit i es => by
    rw [within_iff, Node.inspect]
    by_cases h : go (.compositeLit i es) <;> simp [h, mem_inspectList go m es, WithinList, Node.children]
  | .keyValue i k v => by
    rw [within_iff, Node.inspect]
    by_cases h : go (.keyValue i k v) <;> simp [h, mem_inspect go m k, mem_inspect go m v, Node.children]
  | .funcLit i f t b => by
    rw [within_iff, Node.inspect]
    by_cases h : go (.funcLit i f t b) <;> simp [h, mem_inspectList go m b, WithinList, Node.children]
  | .paren i x => by
    rw [within_iff, Node.inspect]
    by_cases h : go (.paren i x) <;> simp [h, mem_inspect go m x, Node.children]
  | .selector i x s => by
    rw [within_iff, Node.inspect]
    by_cases h : go (.selector i x s) <;> simp [h, mem_inspect go m x, Node.children, within_ident]
  | .index i x y => by
    rw [within_iff, Node.inspect]
    by_cases h : go (.index i x y) <;> simp [h, mem_inspect go m x, mem_inspect go m y, Node.children]
  | .typeAssert i x t => by
    rw [within_iff, Node.inspect]
    by_cases h : go (.typeAssert i x t) <;> simp [h, mem_inspect go m x, Node.children]
  | .call i f as => by
    rw [within_iff, Node.inspect]
    by_cases h : go (.call i f as) <;>
      simp [h, mem_inspect go m f, mem_inspectList go m as, WithinList, Node.children]
  | .unary i a x => by
    rw [within_iff, Node.inspect]
    by_cases h : go (.unary i a x) <;> simp [h, mem_inspect go m x, Node.children]
  | .assign i l r => by
    rw [within_iff, Node.inspect]
    by_cases h : go (.assign i l r) <;>
      simp [h, mem_inspectList go m l, mem_inspectList go m r, WithinList, Node.children, or_and_right, exists_or]
  | .ret i rs => by
    rw [within_iff, Node.inspect]
    by_cases h : go (.ret i rs) <;> simp [h, mem_inspectList go m rs, WithinList, Node.children]
  | .valueSpec i ns t vs => by
    rw [within_iff, Node.inspect]
    by_cases h : go (.valueSpec i ns t vs) <;>
      simp only [h, mem_inspectList go m vs, WithinList, Node.children, or_and_right, exists_or, List.mem_append,
        List.mem_map, List.mem_cons, if_true, true_and]
    · refine or_congr Iff.rfl (or_congr ⟨?_, ?_⟩ Iff.rfl)
      · rintro ⟨x, hx, rfl⟩; exact ⟨_, ⟨x, hx, rfl⟩, .self⟩
      · rintro ⟨_, ⟨x, hx, rfl⟩, hw⟩; exact ⟨x, hx, ((within_ident go m x).1 hw).symm⟩
    · simp
  | .typeSwitch i s a cs => by
    rw [within_iff, Node.inspect]
    by_cases h : go (.typeSwitch i s a cs) <;>
      simp [h, mem_inspectList go m s, mem_inspectList go m cs, mem_inspect go m a, WithinList, Node.children,
        or_and_right, exists_or]
  | .caseClause i ts b => by
    rw [within_iff, Node.inspect]
    by_cases h : go (.caseClause i ts b) <;>
      simp [h, mem_inspectList go m ts, mem_inspectList go m b, WithinList, Node.children, or_and_right, exists_or]
  | .range i k v x b => by
    rw [within_iff, Node.inspect]
    by_cases h : go (.range i k v x b) <;>
      simp [h, mem_inspectOption go m k, mem_inspectOption go m v, mem_inspect go m x, mem_inspectList go m b,
        WithinList, Node.children, or_and_right, exists_or]
  | .send i c v => by
    rw [within_iff, Node.inspect]
    by_cases h : go (.send i c v) <;> simp [h, mem_inspect go m c, mem_inspect go m v, Node.children]
  | .other i cs => by
    rw [within_iff, Node.inspect]
    by_cases h : go (.other i cs) <;> simp [h, mem_inspectList go m cs, WithinList, Node.children]

theorem mem_inspectList (go : Node → Bool) (m : Node) :
    ∀ ns, m ∈ Node.inspectList go ns ↔ WithinList go m ns
  | [] => by simp [Node.inspectList, WithinList]
  | n :: ns => by
    simp [Node.inspectList, mem_inspect go m n, mem_inspectList go m ns, WithinList]

theorem mem_inspectOption (go : Node → Bool) (m : Node) :
    ∀ o : Option Node, m ∈ Node.inspectOption go o ↔ ∃ n, o = some n ∧ Within go m n
  | none => by simp [Node.inspectOption]
  | some n => by simp [Node.inspectOption, mem_inspect go m n]
end

end Serum
