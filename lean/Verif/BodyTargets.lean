import Verif.BodyCrash

/-! # Which functions come up in a body -/

namespace Serum
namespace Analyse
open Flow Taint

variable {env : Env} {f : FnId} {body : List Node} {fuel : Nat}

variable (env body) in
/-- The literal `z` is assigned to a variable. -/
def LitValue (z : FnId) : Prop := ∃ v e id t b, Source env body v e ∧ e.unparen = .funcLit id z t b

variable (env) in
/-- `z` is found by name: a function, a method, or the declaration the parser has linked with an identifier. -/
def Named (z : FnId) : Prop := (∃ n, env.functions n = some z) ∨ (∃ n, z ∈ env.methods n) ∨ ∃ o, (env.object o).decl = .funcDecl z

theorem _root_.Serum.Plan.mem_calls {N D : Type} {g : N} : ∀ p : Plan N D, g ∈ p.calls ↔ .call g ∈ p.leaves
  | .codes s => by simp [Plan.calls, Plan.leaves]
  | .report d => by simp [Plan.calls, Plan.leaves]
  | .panic l => by simp [Plan.calls, Plan.leaves]
  | .call f => by simp [Plan.calls, Plan.leaves]
  | .visit f => by simp [Plan.calls, Plan.leaves]
  | .union a b => by simp [Plan.calls, Plan.leaves, Plan.mem_calls a, Plan.mem_calls b]
  | .minus a s => by simp [Plan.calls, Plan.leaves, Plan.mem_calls a]

theorem searchMethod_named {t : GoType} {m : GoString} {z : FnId} (h : env.searchMethod t m = some z) : Named env z := by
  refine .inr (.inl ⟨m, ?_⟩)
  unfold Env.searchMethod at h
  split at h
  · cases h
  · split at h
    · cases h
    · exact List.mem_of_find?_eq_some h

theorem founds_target {x : Founds} {g : FnId} : .visit g ∉ (founds x).leaves ∧ .call g ∉ (founds x).leaves := by
  constructor <;>
  · intro h
    simp only [founds, Plan.leaves, List.mem_append, reports_leaves] at h
    rcases h with (h | ⟨_, -, h⟩) | h <;> simp at h

theorem foundCode_target {x : Found} {g : FnId} : .visit g ∉ (foundCode x).leaves ∧ .call g ∉ (foundCode x).leaves := by
  constructor <;>
  · intro h
    simp only [foundCode, Plan.leaves, List.mem_append, reports_leaves] at h
    rcases h with (h | ⟨_, -, h⟩) | h <;> simp at h

theorem reports_target {ds : List Diag} {g : FnId} : .visit g ∉ (reports ds).leaves ∧ .call g ∉ (reports ds).leaves := by
  constructor <;>
  · intro h
    rw [reports_leaves] at h; rcases h with h | ⟨_, -, h⟩ <;> cases h

/-- What comes up for a function value: literals assigned to variables, functions with a name, and the literal itself. -/
theorem call_targets : ∀ (n : Nat) (fn : Node) (callee : Option Object) (ce : Option (NodeId × List Node)) {p : BodyPlan} {g : FnId},
    Analyse.call env f body fuel n fn callee ce = .ok p →
    (.visit g ∈ p.leaves → LitValue env body g) ∧ (.call g ∈ p.leaves → Named env g ∨ ∃ id t b, fn.unparen = .funcLit id g t b) := by
  intro n
  induction n with
  | zero => intro fn callee ce p g hp; simp [Analyse.call] at hp
  | succ n ih =>
    intro fn callee ce p g hp
    unfold Analyse.call functionCall lift at hp
    split at hp
    · split at hp
      · cases hp; simp [Plan.leaves, foundCode_target]
      · dsimp only at hp
        generalize (if ce.isSome = true ∧ callee = none then extractErrorCodesFromTypeConversion env fn else []) = cc at hp
        split at hp
        · cases hp; simp [Plan.leaves, foundCode_target]
        · simp only [bind, Except.bind] at hp
          split at hp
          · cases hp
          · rename_i r hr
            split at hp
            · rename_i q
              simp only [pure, Except.pure] at hp
              cases hp
              simp only [Plan.leaves, List.mem_append, reports_target, false_or]
              unfold calledFunction at hr
              split at hr
              · rename_i i hi
                split at hr
                · split at hr
                  · cases hr
                  · cases hr; simp [Plan.leaves]
                · split at hr
                  · cases hr
                  · split at hr
                    · cases hr; simp [founds_target]
                    · cases hr; simp [Plan.leaves]
                  · simp only [bind, Except.bind] at hr
                    split at hr
                    · cases hr
                    · rename_i a ha
                      simp only [pure, Except.pure] at hr
                      cases hr
                      unfold allAssignedLambdas lift at ha
                      split at ha
                      · rename_i t ht
                        simp only [bind, Except.bind] at ha
                        split at ha
                        · cases ha
                        · rename_i b hb
                          simp only [pure, Except.pure] at ha
                          cases ha
                          simp only [Plan.leaves, List.mem_append, reports_target, false_or]
                          have hsrc := run_source ht
                          have key : ∀ (name : GoString) (es : List Node) {b : BodyPlan}, (∀ e ∈ es, ∃ v e', Source env body v e' ∧ e = e'.unparen) →
                              lambdaAssignments env name (fun n' o => Analyse.call env f body fuel n n' o none) es = .ok b →
                              (.visit g ∈ b.leaves → LitValue env body g) ∧ (.call g ∈ b.leaves → Named env g) := by
                            intro name es
                            induction es with
                            | nil => intro b _ hb; cases hb; simp [Plan.leaves]
                            | cons e es ih' =>
                              intro b hs hb
                              simp only [lambdaAssignments, bind, Except.bind] at hb
                              split at hb
                              · cases hb
                              rename_i a1 ha1
                              split at hb
                              · cases hb
                              rename_i a2 ha2
                              simp only [pure, Except.pure] at hb
                              cases hb
                              obtain ⟨i1, i2⟩ := ih' (fun e he => hs e (by simp [he])) ha2
                              simp only [Plan.leaves, List.mem_append]
                              have h1 : (.visit g ∈ a1.leaves → LitValue env body g) ∧ (.call g ∈ a1.leaves → Named env g) := by
                                obtain ⟨v, e', hv, he⟩ := hs e (by simp)
                                unfold lambdaAssignment at ha1
                                split at ha1
                                · rename_i id z t b hz
                                  cases ha1
                                  simp only [Plan.leaves, List.mem_singleton, Plan.visit.injEq, reduceCtorEq, false_implies, and_true]
                                  rintro rfl
                                  rw [he, Node.unparen_unparen] at hz
                                  exact ⟨v, e', _, _, _, hv, hz⟩
                                · rename_i i hi
                                  obtain ⟨j1, j2⟩ := ih _ _ _ (g := g) ha1
                                  refine ⟨j1, fun h => ?_⟩
                                  rcases j2 h with h | ⟨_, _, _, h⟩
                                  · exact h
                                  · simp [Node.unparen] at h
                                · rename_i hi
                                  obtain ⟨j1, j2⟩ := ih _ _ _ (g := g) ha1
                                  refine ⟨j1, fun h => ?_⟩
                                  rcases j2 h with h | ⟨_, _, _, h⟩
                                  · exact h
                                  · simp [Node.unparen] at h
                                · cases ha1; simp [Plan.leaves]
                              exact ⟨fun h => h.elim h1.1 i1, fun h => h.elim h1.2 i2⟩
                          have := key _ t.expressions hsrc hb
                          exact ⟨this.1, fun h => .inl (this.2 h)⟩
                      · cases ha; simp [Plan.leaves]
                      · cases ha
              · dsimp only at hr
                split at hr
                · cases hr; simp [Plan.leaves]
                · split at hr
                  · cases hr; simp [Plan.leaves]
                  · cases hr
              · cases hr
              · cases hr; simp [Plan.leaves]
            · rename_i z
              cases hp
              simp only [Plan.leaves, List.mem_append, foundCode_target, false_or, List.mem_singleton, reduceCtorEq, false_implies, true_and,
                Plan.call.injEq]
              rintro rfl
              unfold calledFunction at hr
              split at hr
              · split at hr
                · split at hr
                  · rename_i hz; cases hr; exact .inl (.inl ⟨_, hz⟩)
                  · cases hr
                · split at hr
                  · rename_i hz; cases hr; exact .inl (.inr (.inr ⟨_, hz⟩))
                  · split at hr <;> cases hr
                  · simp only [bind, Except.bind] at hr
                    split at hr
                    · cases hr
                    · cases hr
              · dsimp only at hr
                split at hr
                · cases hr
                · split at hr
                  · cases hr
                  · simp only [Except.ok.injEq, Sum.inr.injEq] at hr
                    exact .inl (searchMethod_named hr)
              · rename_i hz; cases hr; exact .inr ⟨_, _, _, hz⟩
              · cases hr
            · cases hp; simp [Plan.leaves, foundCode_target]
    · cases hp; simp [Plan.leaves]
    · cases hp

theorem fieldAssignment_calls {x : ObjId} {g : FnId} (len : Nat) (rhs : List Node) : ∀ (ls : List Node) (et : Option ErrorType) (n : Nat),
    .call g ∉ (fieldAssignment env f x len rhs et n ls).leaves
  | [], et, n => by simp [fieldAssignment, Plan.leaves]
  | m :: ms, et, n => by
    have ih := fun et => fieldAssignment_calls (x := x) (g := g) len rhs ms et (n + 1)
    simp only [fieldAssignment]
    repeat' split
    all_goals first | exact ih _ | simp [Plan.leaves, foundCode_target, ih]

theorem fieldAssignments_calls {x : ObjId} {g : FnId} : ∀ ns : List Node, .call g ∉ (fieldAssignments env f x ns).leaves
  | [] => by simp [fieldAssignments, Plan.leaves]
  | n :: ns => by
    have ih := fieldAssignments_calls (x := x) (g := g) ns
    unfold fieldAssignments
    split
    · simp [Plan.leaves]
    · rename_i id lhs rhs ns' he
      obtain ⟨rfl, rfl⟩ : n = .assign id lhs rhs ∧ ns = ns' := by simpa using he
      simp only [Plan.leaves, List.mem_append, ih, or_false]
      exact fieldAssignment_calls _ _ _ _ _
    · rename_i m ns' hno he
      obtain ⟨rfl, rfl⟩ : n = m ∧ ns = ns' := by simpa using he
      exact ih

/-- What comes up in a body: literals assigned to variables, functions with a name, and called literals. -/
theorem Regular.targets (h : Regular env f body) (hf : bound env ≤ fuel) {g : FnId} :
    (g ∈ (plan env fuel f).visits → LitValue env body g) ∧
    (g ∈ (plan env fuel f).calls → Named env g ∨
      ∃ cid fn args id t b, Props.Calls.ErrCall env f body cid fn args ∧ fn.unparen = .funcLit id g t b) := by
  obtain ⟨x, hx⟩ := h.constructor hf
  have key : ∀ l, (l = .visit g ∨ l = .call g) → BodyLeaf env f body fuel x l →
      (l = .visit g → LitValue env body g) ∧ (l = .call g → Named env g ∨
      ∃ cid fn args id t b, Props.Calls.ErrCall env f body cid fn args ∧ fn.unparen = .funcLit id g t b) := by
    intro l hl hb
    have hcall : ∀ {id fn args q}, Props.Calls.ErrCall env f body id fn args → callExpression env f body fuel id fn args = .ok q →
        l ∈ q.leaves → (l = .visit g → LitValue env body g) ∧ (l = .call g → Named env g ∨
          ∃ cid fn args id t b, Props.Calls.ErrCall env f body cid fn args ∧ fn.unparen = .funcLit id g t b) := by
      intro id fn args q hc hq hm
      obtain ⟨k1, k2⟩ := call_targets (g := g) _ _ _ _ hq
      refine ⟨fun e => k1 (e ▸ hm), fun e => ?_⟩
      rcases k2 (e ▸ hm) with h | ⟨i, t, b, h⟩
      · exact .inl h
      · exact .inr ⟨_, _, _, i, t, b, hc, h⟩
    have none_ : ∀ {q : BodyPlan}, l ∈ q.leaves → .visit g ∉ q.leaves → .call g ∉ q.leaves → False := by
      intro q hm h1 h2
      rcases hl with rfl | rfl
      · exact h1 hm
      · exact h2 hm
    cases hb with
    | param hm => exact (none_ hm founds_target.1 founds_target.2).elim
    | just hj =>
      cases hj with
      | empty h => subst h; rcases hl with h | h <;> cases h
      | terminal he hq hm =>
        unfold terminal at hq
        split at hq
        · rename_i id fn args hu
          exact hcall (.expr he hu) hq hm
        all_goals
          refine (none_ hm ?_ ?_).elim <;>
          first
            | (repeat' split at hq) <;> (cases hq; first | exact founds_target.1 | exact founds_target.2 | simp [Plan.leaves])
            | (cases hq; first | exact founds_target.1 | exact founds_target.2 | simp [Plan.leaves])
      | destruct hx' hd hq hm =>
        unfold terminalD at hq
        split at hq
        · cases hq; exact (none_ hm (by simp [Plan.leaves]) (by simp [Plan.leaves])).elim
        · rename_i id fn args hu
          split at hq
          · rename_i n hn
            split at hq
            · cases hq; exact (none_ hm (by simp [Plan.leaves]) (by simp [Plan.leaves])).elim
            · rename_i hp
              simp only [ne_eq, Classical.not_not] at hp
              exact hcall (.last hx' hd hu hn hp) hq hm
          · cases hq; exact (none_ hm (by simp [Plan.leaves]) (by simp [Plan.leaves])).elim
        · cases hq; exact (none_ hm (by simp [Plan.leaves]) (by simp [Plan.leaves])).elim
      | outOfScope _ _ _ h => subst h; rcases hl with h | h <;> cases h
    | annot ha =>
      cases ha with
      | overwrite _ _ _ h => subst h; rcases hl with h | h <;> cases h
      | add _ _ _ h => subst h; rcases hl with h | h <;> cases h
      | diag _ _ h => subst h; rcases hl with h | h <;> cases h
      | bare _ _ h => subst h; rcases hl with h | h <;> cases h
    | field _ hm => exact (none_ hm (fieldAssignments_visits _) (fieldAssignments_calls _)).elim
  constructor
  · intro hg
    rw [Plan.mem_visits] at hg
    exact (key _ (.inl rfl) ((h.leaves hf hx (by simp)).1 hg)).1 rfl
  · intro hg
    rw [Plan.mem_calls] at hg
    exact (key _ (.inr rfl) ((h.leaves hf hx (by simp)).1 hg)).2 rfl

end Analyse
end Serum
