import Verif.CodeSetLemmas
import Verif.Spec.BodySpec
import Verif.AnalyseFuel
import Verif.Spec.CallGraphSpec

/-! # What looking at one function body achieves -/

namespace Serum

namespace Plan
variable {N D : Type}

/-- The atomic steps of a plan. -/
def leaves : Plan N D → List (Plan N D)
  | .codes s => [.codes s]
  | .report d => [.report d]
  | .panic l => [.panic l]
  | .call g => [.call g]
  | .visit g => [.visit g]
  | .union a b => a.leaves ++ b.leaves
  | .minus a _ => a.leaves

theorem mem_reports {d : D} : ∀ p : Plan N D, d ∈ p.reports ↔ .report d ∈ p.leaves
  | .codes s => by simp [reports, leaves]
  | .report e => by simp [reports, leaves]
  | .panic l => by simp [reports, leaves]
  | .call g => by simp [reports, leaves]
  | .visit g => by simp [reports, leaves]
  | .union a b => by simp [reports, leaves, mem_reports a, mem_reports b]
  | .minus a s => by simp [reports, leaves, mem_reports a]

theorem panics_iff : ∀ p : Plan N D, p.panics = true ↔ ∃ l, .panic l ∈ p.leaves
  | .codes s => by simp [panics, leaves]
  | .report e => by simp [panics, leaves]
  | .panic l => by simp [panics, leaves]
  | .call g => by simp [panics, leaves]
  | .visit g => by simp [panics, leaves]
  | .union a b => by
    simp only [panics, leaves, Bool.or_eq_true, panics_iff a, panics_iff b, List.mem_append]
    exact ⟨fun h => h.elim (fun ⟨l, h⟩ => ⟨l, .inl h⟩) (fun ⟨l, h⟩ => ⟨l, .inr h⟩),
      fun ⟨l, h⟩ => h.elim (fun h => .inl ⟨l, h⟩) (fun h => .inr ⟨l, h⟩)⟩
  | .minus a s => by simp [panics, leaves, panics_iff a]

theorem mem_targets {g : N} : ∀ p : Plan N D, g ∈ p.targets ↔ .call g ∈ p.leaves ∨ .visit g ∈ p.leaves
  | .codes s => by simp [targets, leaves]
  | .report e => by simp [targets, leaves]
  | .panic l => by simp [targets, leaves]
  | .call h => by simp [targets, leaves]
  | .visit h => by simp [targets, leaves]
  | .union a b => by
    simp only [targets, leaves, List.mem_append, mem_targets a, mem_targets b]
    exact ⟨fun h => by rcases h with (h | h) | (h | h) <;> simp [h], fun h => by rcases h with (h | h) | (h | h) <;> simp [h]⟩
  | .minus a s => by simp [targets, leaves, mem_targets a]

theorem mem_visits {g : N} : ∀ p : Plan N D, g ∈ p.visits ↔ .visit g ∈ p.leaves
  | .codes s => by simp [visits, leaves]
  | .report e => by simp [visits, leaves]
  | .panic l => by simp [visits, leaves]
  | .call h => by simp [visits, leaves]
  | .visit h => by simp [visits, leaves]
  | .union a b => by simp [visits, leaves, mem_visits a, mem_visits b]
  | .minus a s => by simp [visits, leaves, mem_visits a]

/-- No codes are taken away. -/
def NoMinus : Plan N D → Prop
  | .codes _ | .report _ | .panic _ | .call _ | .visit _ => True
  | .union a b => a.NoMinus ∧ b.NoMinus
  | .minus a s => a.NoMinus ∧ s = []

/-- What comes out of a plan comes out of one of its atomic steps. -/
theorem yields_leaf {ρ : N → GoString → Prop} {c : GoString} : ∀ {p : Plan N D}, p.Yields ρ c →
    ∃ l ∈ p.leaves, l.Yields ρ c
  | .codes s, h => ⟨_, by simp [leaves], h⟩
  | .report e, h => h.elim
  | .panic l, h => h.elim
  | .call g, h => ⟨_, by simp [leaves], h⟩
  | .visit g, h => ⟨_, by simp [leaves], h⟩
  | .union a b, h => by
    rcases h with h | h
    · obtain ⟨l, h1, h2⟩ := yields_leaf h; exact ⟨l, by simp [leaves, h1], h2⟩
    · obtain ⟨l, h1, h2⟩ := yields_leaf h; exact ⟨l, by simp [leaves, h1], h2⟩
  | .minus a s, h => by
    obtain ⟨l, h1, h2⟩ := yields_leaf (p := a) h.1; exact ⟨l, by simp [leaves, h1], h2⟩

/-- If nothing is taken away, what comes out of a step comes out of the plan. -/
theorem leaf_yields {ρ : N → GoString → Prop} {c : GoString} {l : Plan N D} (hc : l.Yields ρ c) :
    ∀ {p : Plan N D}, p.NoMinus → l ∈ p.leaves → p.Yields ρ c
  | .codes s, _, h => by simp only [leaves, List.mem_singleton] at h; exact h ▸ hc
  | .report e, _, h => by simp only [leaves, List.mem_singleton] at h; exact h ▸ hc
  | .panic l, _, h => by simp only [leaves, List.mem_singleton] at h; exact h ▸ hc
  | .call g, _, h => by simp only [leaves, List.mem_singleton] at h; exact h ▸ hc
  | .visit g, _, h => by simp only [leaves, List.mem_singleton] at h; exact h ▸ hc
  | .union a b, hn, h => by
    simp only [leaves, List.mem_append] at h
    rcases h with h | h
    · exact .inl (leaf_yields hc hn.1 h)
    · exact .inr (leaf_yields hc hn.2 h)
  | .minus a s, hn, h => ⟨leaf_yields hc hn.1 h, by rw [hn.2]; simp⟩

/-- The atomic steps from which at most the codes `S` are taken away. -/
def keep (S : CodeSet) : Plan N D → List (Plan N D)
  | .codes s => [.codes s]
  | .report d => [.report d]
  | .panic l => [.panic l]
  | .call g => [.call g]
  | .visit g => [.visit g]
  | .union a b => a.keep S ++ b.keep S
  | .minus a s => if ∀ c ∈ s, c ∈ S then a.keep S else []

theorem keep_of_noMinus (S : CodeSet) : ∀ {p : Plan N D}, p.NoMinus → p.keep S = p.leaves
  | .codes s, _ | .report e, _ | .panic l, _ | .call g, _ | .visit g, _ => rfl
  | .union a b, h => by simp only [keep, leaves, keep_of_noMinus S h.1, keep_of_noMinus S h.2]
  | .minus a s, h => by
    simp only [keep, leaves, h.2]
    rw [if_pos (by simp), keep_of_noMinus S h.1]

theorem keep_mono {S T : CodeSet} (h : ∀ c ∈ S, c ∈ T) {l : Plan N D} : ∀ {p : Plan N D}, l ∈ p.keep S → l ∈ p.keep T
  | .codes s, hl | .report e, hl | .panic l, hl | .call g, hl | .visit g, hl => hl
  | .union a b, hl => by
    simp only [keep, List.mem_append] at hl ⊢
    exact hl.imp (keep_mono h) (keep_mono h)
  | .minus a s, hl => by
    simp only [keep] at hl ⊢
    split at hl
    · rename_i hs
      rw [if_pos (fun c hc => h c (hs c hc))]
      exact keep_mono h hl
    · simp at hl

/-- Apart from the codes `S`, what comes out of such a step comes out of the plan. -/
theorem keep_yields {ρ : N → GoString → Prop} {c : GoString} {S : CodeSet} (hS : c ∉ S) {l : Plan N D}
    (hc : l.Yields ρ c) : ∀ {p : Plan N D}, l ∈ p.keep S → p.Yields ρ c
  | .codes s, h => by simp only [keep, List.mem_singleton] at h; exact h ▸ hc
  | .report e, h => by simp only [keep, List.mem_singleton] at h; exact h ▸ hc
  | .panic l, h => by simp only [keep, List.mem_singleton] at h; exact h ▸ hc
  | .call g, h => by simp only [keep, List.mem_singleton] at h; exact h ▸ hc
  | .visit g, h => by simp only [keep, List.mem_singleton] at h; exact h ▸ hc
  | .union a b, h => by
    simp only [keep, List.mem_append] at h
    rcases h with h | h
    · exact .inl (keep_yields hS hc h)
    · exact .inr (keep_yields hS hc h)
  | .minus a s, h => by
    simp only [keep] at h
    split at h
    · rename_i hs; exact ⟨keep_yields hS hc h, fun hcs => hS (hs c hcs)⟩
    · simp at h

/-- The codes of a plan, if called functions have none. -/
def eval : Plan N D → CodeSet
  | .codes s => s
  | .report _ | .panic _ | .call _ | .visit _ => []
  | .union a b => CodeSet.union a.eval b.eval
  | .minus a s => CodeSet.diff a.eval s

theorem yields_eval {ρ : N → GoString → Prop} {c : GoString} : ∀ {p : Plan N D}, p.targets = [] →
    (p.Yields ρ c ↔ c ∈ p.eval)
  | .codes s, _ => Iff.rfl
  | .report _, _ => by simp [Yields, eval]
  | .panic _, _ => by simp [Yields, eval]
  | .call g, h => by simp [targets] at h
  | .visit g, h => by simp [targets] at h
  | .union a b, h => by
    simp only [targets, List.append_eq_nil_iff] at h
    simp only [Yields, eval, CodeSet.mem_union, yields_eval h.1, yields_eval h.2]
  | .minus a s, h => by
    simp only [Yields, eval, CodeSet.mem_diff, yields_eval (p := a) h]

theorem unions_leaves (l : Plan N D) : ∀ ps : List (Plan N D),
    l ∈ (Plan.unions ps).leaves ↔ l = .codes [] ∨ ∃ p ∈ ps, l ∈ p.leaves
  | [] => by simp [unions, leaves]
  | p :: ps => by
    simp only [unions, leaves, List.mem_append, unions_leaves l ps, List.mem_cons, exists_eq_or_imp]
    exact ⟨fun h => by rcases h with h | h | h <;> simp [h], fun h => by rcases h with h | h | h <;> simp [h]⟩

end Plan

theorem reports_leaves (l : BodyPlan) (ds : List Diag) :
    l ∈ (reports ds).leaves ↔ l = .codes [] ∨ ∃ d ∈ ds, l = .report d := by
  unfold reports
  rw [Plan.unions_leaves]
  simp only [List.mem_map]
  constructor
  · rintro (h | ⟨p, ⟨d, hd, rfl⟩, h⟩)
    · exact .inl h
    · simp only [Plan.leaves, List.mem_singleton] at h
      exact .inr ⟨d, hd, h⟩
  · rintro (h | ⟨d, hd, rfl⟩)
    · exact .inl h
    · exact .inr ⟨_, ⟨d, hd, rfl⟩, by simp [Plan.leaves]⟩

namespace Analyse
open Flow Taint

variable (env : Env) (f : FnId) (body : List Node) (fuel : Nat)

/-- What an expression contributes by itself, apart from the variable it refers to. -/
def terminal (e : Node) : Except Stop BodyPlan :=
  match e.unparen with
  | .call id fn args => callExpression env f body fuel id fn args
  | .ident _ => .ok (.codes [])
  | .unary id isAnd x =>
    if isAnd && env.implError (env.typeOf id) then
      match x.unparen with
      | .ident _ => .ok (.codes [])
      | _ => .ok (founds (extractErrorCodesFromAffector env f (.unary id isAnd x)))
    else .ok (.report ⟨id, .notErrorType⟩)
  | .compositeLit id elts => .ok (founds (extractErrorCodesFromAffector env f (.compositeLit id elts)))
  | .basicLit id => .ok (founds (extractErrorCodesFromAffector env f (.basicLit id)))
  | .selector _ _ _ => .ok (.codes [])
  | .typeAssert id _ none => .ok (.report ⟨id, .typeSwitchUnsupported⟩)
  | .typeAssert id _ (some _) => .ok (.report ⟨id, .typeAssertUnsupported⟩)
  | .index id _ _ => .ok (.report ⟨id, .indexUnsupported⟩)
  | e => .ok (.report ⟨e.id, .exprUnsupported⟩)

/-- What a destructuring assignment contributes by itself. -/
def terminalD (d : Destruct) : Except Stop BodyPlan :=
  match d.source.unparen with
  | .typeAssert _ _ _ => .ok (.codes [])
  | .call id fn args =>
    match env.typeOf fn.id with
    | .signature n =>
      if d.position + 1 ≠ env.sigResults n then .ok (.report ⟨d.target.id, .nonLastResult⟩)
      else callExpression env f body fuel id fn args
    | _ => .ok (.panic "analyse.go:807: interface conversion: types.Type is not *types.Signature")
  | _ => .ok (.panic "analyse.go:818: destructuring assignment is currently only supported from a call expression")

/-- The variable behind an identifier has been visited, or the identifier is reported. -/
def RefDone (L : List BodyPlan) (V : List ObjId) (i : Ident) : Prop :=
  (Local env (env.func f) body none i → i.name ≠ b!"nil" → ∀ x, i.obj = some x → x ∈ V) ∧
  (¬ Local env (env.func f) body none i → .report ⟨i.id, .errorOutOfScope⟩ ∈ L)

/-- An expression has been looked at. -/
def Handled (L : List BodyPlan) (V : List ObjId) (e : Node) : Prop :=
  (∀ i, RefersTo env e i → RefDone env f body L V i) ∧
  ∃ q, terminal env f body fuel e = .ok q ∧ ∀ l ∈ q.leaves, l = .codes [] ∨ l ∈ L

/-- A destructuring assignment has been looked at. -/
def HandledD (L : List BodyPlan) (V : List ObjId) (d : Destruct) : Prop :=
  (∀ id y t, d.source.unparen = .typeAssert id y t → Handled env f body fuel L V y) ∧
  ∃ q, terminalD env f body fuel d = .ok q ∧ ∀ l ∈ q.leaves, l = .codes [] ∨ l ∈ L

/-- Everything assigned to a variable has been looked at. -/
def VarDone (L : List BodyPlan) (V : List ObjId) (x : ObjId) : Prop :=
  (∀ e, Source env body x e → Handled env f body fuel L V e) ∧
  (∀ d, Destructured env body x d → HandledD env f body fuel L V d)

/-- The steps that may occur in a plan. -/
inductive Just (R : Node → Prop) (l : BodyPlan) : Prop where
  | empty : l = .codes [] → Just R l
  | terminal {e q} : ErrExprFrom env f body R e → Analyse.terminal env f body fuel e = .ok q → l ∈ q.leaves → Just R l
  | destruct {x d q} : ErrVarFrom env f body R x → Destructured env body x d →
      terminalD env f body fuel d = .ok q → l ∈ q.leaves → Just R l
  | outOfScope {e i} : ErrExprFrom env f body R e → RefersTo env e i → ¬ Local env (env.func f) body none i →
      l = .report ⟨i.id, .errorOutOfScope⟩ → Just R l

variable {env f body fuel} {R : Node → Prop}

theorem RefDone.mono {L L' : List BodyPlan} {V V' : List ObjId} (hL : ∀ l ∈ L, l ∈ L') (hV : ∀ o ∈ V, o ∈ V')
    {i : Ident} (h : RefDone env f body L V i) : RefDone env f body L' V' i :=
  ⟨fun hl hn x hx => hV x (h.1 hl hn x hx), fun hl => hL _ (h.2 hl)⟩

theorem Handled.mono {L L' : List BodyPlan} {V V' : List ObjId} (hL : ∀ l ∈ L, l ∈ L') (hV : ∀ o ∈ V, o ∈ V')
    {e : Node} (h : Handled env f body fuel L V e) : Handled env f body fuel L' V' e :=
  ⟨fun i hi => (h.1 i hi).mono hL hV, let ⟨q, hq, hl⟩ := h.2; ⟨q, hq, fun l hl' => (hl l hl').imp id (hL l)⟩⟩

theorem HandledD.mono {L L' : List BodyPlan} {V V' : List ObjId} (hL : ∀ l ∈ L, l ∈ L') (hV : ∀ o ∈ V, o ∈ V')
    {d : Destruct} (h : HandledD env f body fuel L V d) : HandledD env f body fuel L' V' d :=
  ⟨fun id y t hi => (h.1 id y t hi).mono hL hV, let ⟨q, hq, hl⟩ := h.2; ⟨q, hq, fun l hl' => (hl l hl').imp id (hL l)⟩⟩

theorem VarDone.mono {L L' : List BodyPlan} {V V' : List ObjId} (hL : ∀ l ∈ L, l ∈ L') (hV : ∀ o ∈ V, o ∈ V')
    {x : ObjId} (h : VarDone env f body fuel L V x) : VarDone env f body fuel L' V' x :=
  ⟨fun e he => (h.1 e he).mono hL hV, fun d hd => (h.2 d hd).mono hL hV⟩

theorem Handled.congr {L : List BodyPlan} {V : List ObjId} {e e' : Node} (he : e.unparen = e'.unparen)
    (h : Handled env f body fuel L V e) : Handled env f body fuel L V e' := by
  refine ⟨fun i hi => h.1 i ?_, ?_⟩
  · unfold RefersTo at hi ⊢; rw [he]; exact hi
  · obtain ⟨q, hq, hl⟩ := h.2
    refine ⟨q, ?_, hl⟩
    unfold terminal at hq ⊢; rw [← he]; exact hq

/-- What a step of the search for codes achieves. -/
structure Step (R : Node → Prop) (visited : List ObjId) (p : BodyPlan) (v : List ObjId) : Prop where
  grows : ∀ o ∈ visited, o ∈ v
  done : ∀ x ∈ v, x ∉ visited → VarDone env f body fuel p.leaves v x
  vars : ∀ x ∈ v, x ∉ visited → ErrVarFrom env f body R x
  just : ∀ l ∈ p.leaves, Just env f body fuel R l
  noMinus : p.NoMinus

variable (env f body fuel) in
abbrev StepOf := @Step env f body fuel

theorem Step.seq {v₀ v₁ v₂ : List ObjId} {p q : BodyPlan} (h₁ : StepOf env f body fuel R v₀ p v₁)
    (h₂ : StepOf env f body fuel R v₁ q v₂) : StepOf env f body fuel R v₀ (.union p q) v₂ := by
  refine ⟨fun o ho => h₂.grows o (h₁.grows o ho), fun x hx hn => ?_, fun x hx hn => ?_, fun l hl => ?_, ⟨h₁.noMinus, h₂.noMinus⟩⟩
  · by_cases h : x ∈ v₁
    · exact (h₁.done x h hn).mono (fun l hl => by simp [Plan.leaves, hl]) h₂.grows
    · exact (h₂.done x hx h).mono (fun l hl => by simp [Plan.leaves, hl]) (fun _ h => h)
  · by_cases h : x ∈ v₁
    · exact h₁.vars x h hn
    · exact h₂.vars x hx h
  · simp only [Plan.leaves, List.mem_append] at hl
    exact hl.elim (h₁.just l) (h₂.just l)

theorem Step.empty (v : List ObjId) : StepOf env f body fuel R v (.codes []) v :=
  ⟨fun _ h => h, fun x h hn => absurd h hn, fun x h hn => absurd h hn,
    fun l hl => by simp only [Plan.leaves, List.mem_singleton] at hl; exact .empty hl, trivial⟩

/-- Plans built for expressions take nothing away. -/
theorem unions_noMinus {N D : Type} : ∀ ps : List (Plan N D), (∀ p ∈ ps, p.NoMinus) → (Plan.unions ps).NoMinus
  | [], _ => trivial
  | p :: ps, h => ⟨h p (by simp), unions_noMinus ps (fun q hq => h q (by simp [hq]))⟩

theorem reports_noMinus (ds : List Diag) : (reports ds).NoMinus := by
  refine unions_noMinus _ fun p hp => ?_
  simp only [List.mem_map] at hp
  obtain ⟨d, _, rfl⟩ := hp
  trivial

theorem founds_noMinus (x : Founds) : (founds x).NoMinus := ⟨reports_noMinus _, trivial⟩
theorem foundCode_noMinus (x : Found) : (foundCode x).NoMinus := ⟨reports_noMinus _, trivial⟩

theorem lambdaAssignments_noMinus {call : Node → Option Object → Except Stop BodyPlan}
    (hc : ∀ n o p, call n o = .ok p → p.NoMinus) : ∀ (es : List Node) {p : BodyPlan},
    lambdaAssignments env name call es = .ok p → p.NoMinus := by
  intro es
  induction es with
  | nil => intro p h; simp only [lambdaAssignments] at h; cases h; trivial
  | cons e es ih =>
    intro p h
    simp only [lambdaAssignments, bind, Except.bind] at h
    split at h
    · cases h
    · rename_i a ha
      split at h
      · cases h
      · rename_i b hb
        simp only [pure, Except.pure] at h
        cases h
        refine ⟨?_, ih hb⟩
        unfold lambdaAssignment at ha
        split at ha
        · cases ha; trivial
        · exact hc _ _ _ ha
        · exact hc _ _ _ ha
        · cases ha; trivial

theorem call_noMinus : ∀ (n : Nat) (fn : Node) (callee : Option Object) (ce : Option (NodeId × List Node))
    {p : BodyPlan}, call env f body fuel n fn callee ce = .ok p → p.NoMinus := by
  intro n
  induction n with
  | zero => intro _ _ _ p h; simp [call] at h
  | succ n ih =>
    intro fn callee ce p h
    unfold call functionCall lift at h
    split at h
    · split at h
      · cases h; exact ⟨foundCode_noMinus _, trivial⟩
      · dsimp only at h
        generalize (if ce.isSome = true ∧ callee = none then extractErrorCodesFromTypeConversion env fn else []) = cc at h
        split at h
        · cases h; exact ⟨foundCode_noMinus _, trivial⟩
        · simp only [bind, Except.bind] at h
          split at h
          · cases h
          · rename_i r hr
            split at h
            · rename_i q
              simp only [pure, Except.pure] at h
              cases h
              refine ⟨reports_noMinus _, ?_⟩
              unfold calledFunction at hr
              split at hr
              · split at hr
                · split at hr
                  · cases hr
                  · cases hr; trivial
                · split at hr
                  · cases hr
                  · split at hr
                    · cases hr; exact founds_noMinus _
                    · cases hr; trivial
                  · simp only [bind, Except.bind] at hr
                    split at hr
                    · cases hr
                    · rename_i a ha
                      simp only [pure, Except.pure] at hr
                      cases hr
                      unfold allAssignedLambdas lift at ha
                      split at ha
                      · simp only [bind, Except.bind] at ha
                        split at ha
                        · cases ha
                        · rename_i b hb
                          simp only [pure, Except.pure] at ha
                          cases ha
                          exact ⟨reports_noMinus _, lambdaAssignments_noMinus (fun _ _ _ h => ih _ _ _ h) _ hb⟩
                      · cases ha; trivial
                      · cases ha
              · dsimp only at hr
                repeat' split at hr
                all_goals first | (cases hr; done) | (cases hr; trivial)
              · cases hr
              · cases hr; trivial
            · simp only [pure, Except.pure] at h
              cases h; exact ⟨foundCode_noMinus _, trivial⟩
            · simp only [pure, Except.pure] at h
              cases h; exact ⟨foundCode_noMinus _, trivial⟩
    · cases h; trivial
    · cases h

theorem terminal_noMinus {e : Node} {q : BodyPlan} (h : terminal env f body fuel e = .ok q) : q.NoMinus := by
  unfold terminal at h
  split at h
  · exact call_noMinus _ _ _ _ h
  · cases h; trivial
  · split at h
    · split at h
      · cases h; trivial
      · cases h; exact founds_noMinus _
    · cases h; trivial
  · cases h; exact founds_noMinus _
  · cases h; exact founds_noMinus _
  all_goals (cases h; trivial)

theorem terminalD_noMinus {d : Destruct} {q : BodyPlan} (h : terminalD env f body fuel d = .ok q) : q.NoMinus := by
  unfold terminalD at h
  split at h
  · cases h; trivial
  · split at h
    · split at h
      · cases h; trivial
      · exact call_noMinus _ _ _ _ h
    · cases h; trivial
  · cases h; trivial

/-- One expression. -/
theorem expression_step {taint : List ObjId → Ident → Except Stop Threaded} {visited : List ObjId} {e e₀ : Node}
    (he : ErrExprFrom env f body R e₀) (hu : e.unparen = e₀.unparen)
    (ht : ∀ i p v, RefersTo env e₀ i → taint visited i = .ok (p, v) →
      StepOf env f body fuel R visited p v ∧ RefDone env f body p.leaves v i)
    {p : BodyPlan} {v : List ObjId}
    (h : expression env f body fuel taint visited e = .ok (p, v)) :
    StepOf env f body fuel R visited p v ∧ Handled env f body fuel p.leaves v e₀ := by
  -- expressions that stand for themselves
  have self : terminal env f body fuel e₀ = .ok p → (∀ i, ¬ RefersTo env e₀ i) → v = visited →
      StepOf env f body fuel R visited p v ∧ Handled env f body fuel p.leaves v e₀ := by
    rintro htm hn rfl
    exact ⟨⟨fun _ h => h, fun x h hn => absurd h hn, fun x h hn => absurd h hn,
      fun l hl => .terminal he htm hl, terminal_noMinus htm⟩, fun i hi => absurd hi (hn i), p, htm, fun l hl => .inr hl⟩
  -- expressions that hand on a variable
  have ref : ∀ i, RefersTo env e₀ i → (∀ j, RefersTo env e₀ j → j = i) →
      terminal env f body fuel e₀ = .ok (.codes []) → taint visited i = .ok (p, v) →
      StepOf env f body fuel R visited p v ∧ Handled env f body fuel p.leaves v e₀ := by
    intro i hi huniq hq htaint
    obtain ⟨h1, h2⟩ := ht i p v hi htaint
    exact ⟨h1, fun j hj => by rw [huniq j hj]; exact h2,
      .codes [], hq, fun l hl => by simp only [Plan.leaves, List.mem_singleton] at hl; simp [hl]⟩
  have noref : (∀ i, e₀.unparen ≠ .ident i) → (∀ id x, e₀.unparen ≠ .unary id true x) →
      (∀ id x s, e₀.unparen ≠ .selector id x s) → ∀ i, ¬ RefersTo env e₀ i := by
    rintro h1 h2 h3 i (h | ⟨id, x, h, _⟩ | ⟨id, x, h⟩)
    · exact h1 _ h
    · exact h2 _ _ h
    · exact h3 _ _ _ h
  unfold expression at h
  rw [hu] at h
  unfold terminal at self ref
  unfold RefersTo at *
  cases hc : e₀.unparen with
  | ident i =>
    simp only [hc] at h self ref
    exact ref i (by simp) (by simp) trivial h
  | selector id x s =>
    simp only [hc] at h self ref
    exact ref s (by simp) (by simp) trivial h
  | unary id isAnd x =>
    simp only [hc] at h self ref noref
    cases hb : isAnd && env.implError (env.typeOf id) with
    | false =>
      simp only [hb] at h self ref
      cases h
      refine self rfl ?_ rfl
      rintro i (h | ⟨id', x', h, h', _⟩ | ⟨id', x', h⟩)
      · cases h
      · cases h; simp [h'] at hb
      · cases h
    | true =>
      simp only [hb] at h self ref
      simp only [Bool.and_eq_true] at hb
      cases hx : x.unparen with
      | ident i =>
        simp only [hx] at h self ref
        refine ref i (.inr (.inl ⟨id, x, by rw [hb.1], hb.2, hx⟩)) ?_ rfl h
        rintro j (h | ⟨id', x', h, h', hx'⟩ | ⟨id', x', h⟩)
        · cases h
        · cases h; rw [hx] at hx'; cases hx'; rfl
        · cases h
      | _ =>
        simp only [hx] at h self ref
        cases h
        refine self rfl ?_ rfl
        rintro j (h | ⟨id', x', h, h', hx'⟩ | ⟨id', x', h⟩)
        · cases h
        · cases h; rw [hx] at hx'; cases hx'
        · cases h
  | call id fn args =>
    simp only [hc] at h self ref noref
    unfold keep at h
    split at h
    · rename_i q hq
      cases h
      exact self hq (noref (by simp) (by simp) (by simp)) rfl
    · cases h
  | typeAssert id x t =>
    cases t <;>
    · simp only [hc] at h self ref noref
      cases h
      exact self rfl (noref (by simp) (by simp) (by simp)) rfl
  | _ =>
    simp only [hc] at h self ref noref
    cases h
    exact self rfl (noref (by simp) (by simp) (by simp)) rfl

/-- Where tracking starts is an error expression. -/
theorem _root_.Serum.Flow.ErrStartFrom.errExpr {e : Node} (h : ErrStartFrom env f body R e) : ErrExprFrom env f body R e := by
  cases h with
  | root h => exact .root h
  | assigned h1 h2 h3 _ => exact .assigned h1 h2 h3
  | asserted h1 h2 h3 h4 => exact .asserted h1 h2 h3 h4

/-- A list of expressions. -/
theorem expressions_step {expr : List ObjId → Node → Except Stop Threaded} : ∀ (es : List Node) (visited : List ObjId),
    (∀ e ∈ es, ∃ e₀, ErrStartFrom env f body R e₀ ∧ e.unparen = e₀.unparen) →
    (∀ v, (∀ o ∈ visited, o ∈ v) → ∀ e e₀ p w, e ∈ es → ErrStartFrom env f body R e₀ → e.unparen = e₀.unparen →
      expr v e = .ok (p, w) → StepOf env f body fuel R v p w ∧ Handled env f body fuel p.leaves w e₀) →
    ∀ {p : BodyPlan} {v : List ObjId}, expressions expr visited es = .ok (p, v) →
      StepOf env f body fuel R visited p v ∧ ∀ e ∈ es, Handled env f body fuel p.leaves v e := by
  intro es
  induction es with
  | nil =>
    intro visited _ _ p v h
    simp only [expressions] at h
    cases h
    exact ⟨Step.empty _, by simp⟩
  | cons e es ih =>
    intro visited herr hex p v h
    simp only [expressions, bind, Except.bind] at h
    split at h
    · cases h
    · rename_i r hr
      obtain ⟨p₁, v₁⟩ := r
      obtain ⟨e₀, he₀, hu⟩ := herr e (by simp)
      obtain ⟨s₁, h₁⟩ := hex visited (fun _ h => h) e e₀ p₁ v₁ (by simp) he₀ hu hr
      simp only at h
      split at h
      · cases h
      · rename_i r' hr'
        obtain ⟨p₂, v₂⟩ := r'
        simp only [pure, Except.pure] at h
        cases h
        obtain ⟨s₂, h₂⟩ := ih v₁ (fun e he => herr e (by simp [he]))
          (fun w hw e e₀ p u he => hex w (fun o ho => hw o (s₁.grows o ho)) e e₀ p u (by simp [he])) hr'
        refine ⟨s₁.seq s₂, fun e' he' => ?_⟩
        rcases List.mem_cons.1 he' with rfl | he'
        · exact (h₁.congr hu.symm).mono (fun l hl => by simp [Plan.leaves, hl]) s₂.grows
        · exact (h₂ e' he').mono (fun l hl => by simp [Plan.leaves, hl]) (fun _ h => h)

/-- A list of destructuring assignments. -/
theorem destructs_step {expr : List ObjId → Node → Except Stop Threaded} : ∀ (ds : List Destruct) (visited : List ObjId),
    (∀ d ∈ ds, ∃ x, ErrVarFrom env f body R x ∧ Destructured env body x d) →
    (∀ v, (∀ o ∈ visited, o ∈ v) → ∀ e p w, ErrStartFrom env f body R e →
      expr v e = .ok (p, w) → StepOf env f body fuel R v p w ∧ Handled env f body fuel p.leaves w e) →
    ∀ {p : BodyPlan} {v : List ObjId}, destructs env f body fuel expr visited ds = .ok (p, v) →
      StepOf env f body fuel R visited p v ∧ ∀ d ∈ ds, HandledD env f body fuel p.leaves v d := by
  intro ds
  induction ds with
  | nil =>
    intro visited _ _ p v h
    simp only [destructs] at h
    cases h
    exact ⟨Step.empty _, by simp⟩
  | cons d ds ih =>
    intro visited herr hex p v h
    simp only [destructs, bind, Except.bind] at h
    split at h
    · cases h
    · rename_i r hr
      obtain ⟨p₁, v₁⟩ := r
      obtain ⟨x, hx, hd⟩ := herr d (by simp)
      have : StepOf env f body fuel R visited p₁ v₁ ∧ HandledD env f body fuel p₁.leaves v₁ d := by
        have self : terminalD env f body fuel d = .ok p₁ → (∀ id y t, d.source.unparen ≠ .typeAssert id y t) →
            v₁ = visited → StepOf env f body fuel R visited p₁ v₁ ∧ HandledD env f body fuel p₁.leaves v₁ d := by
          rintro htm hn rfl
          exact ⟨⟨fun _ h => h, fun x h hn => absurd h hn, fun x h hn => absurd h hn,
            fun l hl => .destruct hx hd htm hl, terminalD_noMinus htm⟩,
            fun id y t hi => absurd hi (hn id y t), p₁, htm, fun l hl => .inr hl⟩
        unfold destruct at hr
        unfold terminalD at self
        cases hc : d.source.unparen with
        | typeAssert id y t =>
          simp only [hc] at hr
          obtain ⟨e, i, he, hv⟩ := hx
          obtain ⟨h1, h2⟩ := hex visited (fun _ h => h) y p₁ v₁ (.asserted he hv hd hc) hr
          refine ⟨h1, fun id' y' t' hy => ?_, .codes [], ?_, fun l hl => ?_⟩
          · rw [hc] at hy; cases hy; exact h2
          · unfold terminalD; rw [hc]
          · simp only [Plan.leaves, List.mem_singleton] at hl; exact .inl hl
        | call id fn args =>
          simp only [hc] at hr self
          cases ht : env.typeOf fn.id with
          | signature n =>
            simp only [ht] at hr self
            split at hr
            · rename_i hpos
              cases hr
              exact self (by rw [if_pos hpos]) (by simp) rfl
            · rename_i hpos
              rw [if_neg hpos] at self
              unfold keep at hr
              split at hr
              · rename_i q hq
                cases hr
                exact self hq (by simp) rfl
              · cases hr
          | _ =>
            simp only [ht] at hr self
            cases hr
            exact self rfl (by simp) rfl
        | _ =>
          simp only [hc] at hr self
          cases hr
          exact self rfl (by simp) rfl
      obtain ⟨s₁, h₁⟩ := this
      simp only at h
      split at h
      · cases h
      · rename_i r' hr'
        obtain ⟨p₂, v₂⟩ := r'
        simp only [pure, Except.pure] at h
        cases h
        obtain ⟨s₂, h₂⟩ := ih v₁ (fun d hd => herr d (by simp [hd]))
          (fun w hw => hex w (fun o ho => hw o (s₁.grows o ho))) hr'
        refine ⟨s₁.seq s₂, fun d' hd' => ?_⟩
        rcases List.mem_cons.1 hd' with rfl | hd'
        · exact h₁.mono (fun l hl => by simp [Plan.leaves, hl]) s₂.grows
        · exact (h₂ d' hd').mono (fun l hl => by simp [Plan.leaves, hl]) (fun _ h => h)

theorem _root_.Serum.Flow.ErrExprFrom.mono {R R' : Node → Prop} (h : ∀ e, R e → R' e) {e : Node}
    (he : ErrExprFrom env f body R e) : ErrExprFrom env f body R' e := by
  induction he with
  | root hr => exact .root (h _ hr)
  | assigned _ hv hs ih => exact .assigned ih hv hs
  | asserted _ hv hd hu ih => exact .asserted ih hv hd hu

theorem _root_.Serum.Flow.ErrStartFrom.mono {R R' : Node → Prop} (h : ∀ e, R e → R' e) {e : Node}
    (he : ErrStartFrom env f body R e) : ErrStartFrom env f body R' e := by
  cases he with
  | root h' => exact .root (h _ h')
  | assigned h1 h2 h3 h4 => exact .assigned (h1.mono h) h2 h3 h4
  | asserted h1 h2 h3 h4 => exact .asserted (h1.mono h) h2 h3 h4

theorem _root_.Serum.Flow.ErrVarFrom.mono {R R' : Node → Prop} (h : ∀ e, R e → R' e) {x : ObjId}
    (hx : ErrVarFrom env f body R x) : ErrVarFrom env f body R' x :=
  let ⟨e, i, he, hv⟩ := hx; ⟨e, i, he.mono h, hv⟩

theorem Just.mono {R R' : Node → Prop} (h : ∀ e, R e → R' e) {l : BodyPlan} (hj : Just env f body fuel R l) :
    Just env f body fuel R' l := by
  cases hj with
  | empty h => exact .empty h
  | terminal he ht hl => exact .terminal (he.mono h) ht hl
  | destruct hx hd ht hl => exact .destruct (hx.mono h) hd ht hl
  | outOfScope he hi hn hl => exact .outOfScope (he.mono h) hi hn hl

/-- Variables tracked from an error expression are error variables. -/
theorem tracked_errVar {seen : List ObjId} {i : Ident} {e : Node} (he : ErrExprFrom env f body R e)
    (hi : RefersTo env e i) {x : ObjId} (h : Tracked env (env.func f) body none seen i x) : ErrVarFrom env f body R x := by
  induction h with
  | start ho hn hl _ => exact ⟨e, i, he, hi, ho, hn, hl⟩
  | @step x y e' j _ hs hv hn hl _ ih =>
    obtain ⟨e₁, i₁, h1, h2⟩ := ih
    exact ⟨e', j, .assigned h1 h2 hs, .inl hv.1, hv.2.1, hn, hl⟩

theorem local_noObj {i : Ident} (ho : i.obj = none) :
    Local env (env.func f) body none i ↔ i.name = b!"nil" := by
  unfold Local Inside
  simp [ho]

/-- Tracking an error variable. -/
theorem identTaint_step (hbefore : LitsBeforeUses env body)
    (hclean : ∀ e i, ErrStartFrom env f body R e → RefersTo env e i → CleanRoot env body i) (hb : BodyOk body) : ∀ (depth : Nat) (visited : List ObjId)
    (i : Ident) (e : Node), ErrStartFrom env f body R e → RefersTo env e i → ∀ (p : BodyPlan) (v : List ObjId),
    enough env ≤ fuel → identTaint env f body fuel depth visited i = .ok (p, v) →
    StepOf env f body fuel R visited p v ∧ RefDone env f body p.leaves v i := by
  intro depth
  induction depth with
  | zero => intro visited i e _ _ p v _ h; simp [identTaint] at h
  | succ depth ih =>
    intro visited i e hstart hi p v hfuel h
    have he := hstart.errExpr
    unfold identTaint at h
    cases hrun : run env (env.func f) body none fuel visited i with
    | error s =>
      exfalso
      have := findSpread_fine (env := env) (function := env.func f) (body := body) (param := none)
        (P := fun _ => False) (.inl hb) fuel i ⟨visited, [], [], [], []⟩
        (Nat.lt_of_lt_of_le (remaining_lt_enough _) hfuel)
      unfold run at hrun
      rw [hrun] at this
      exact this
    | ok t =>
      simp only [hrun, bind, Except.bind] at h
      cases ho : i.obj with
      | none =>
        have ht := run_noObj ho hrun
        subst ht
        simp only [expressions, destructs, pure, Except.pure] at h
        cases h
        by_cases hn : i.name = b!"nil"
        · simp only [hn, if_true, List.map_nil]
          refine ⟨⟨fun _ h => h, fun x h hn => absurd h hn, fun x h hn => absurd h hn, fun l hl => ?_, reports_noMinus _, trivial, trivial⟩, ?_, fun hl => ?_⟩
          · simp [Plan.leaves, reports_leaves] at hl
            exact .empty hl
          · intro _ hne; exact absurd hn hne
          · exact absurd ((local_noObj ho).2 hn) hl
        · simp only [hn, if_false, List.map_cons, List.map_nil]
          have hnl : ¬ Local env (env.func f) body none i := fun h => hn ((local_noObj ho).1 h)
          refine ⟨⟨fun _ h => h, fun x h hn => absurd h hn, fun x h hn => absurd h hn, fun l hl => ?_, reports_noMinus _, trivial, trivial⟩, ?_, fun hl => ?_⟩
          · simp only [Plan.leaves, List.mem_append, reports_leaves, List.mem_singleton] at hl
            rcases hl with (hl | ⟨d, rfl, hl⟩) | hl | hl
            · exact .empty hl
            · exact .outOfScope he hi hnl hl
            · exact .empty hl
            · exact .empty hl
          · intro hl; exact absurd hl hnl
          · simp [Plan.leaves, reports_leaves]
      | some x =>
        obtain ⟨r1, r2, r3, r4⟩ := run_spec hbefore ho (hclean e i hstart hi) hrun
        have hexpr : ∀ v, ∀ e e₀ p w, ErrStartFrom env f body R e₀ → e.unparen = e₀.unparen →
            expression env f body fuel (identTaint env f body fuel depth) v e = .ok (p, w) →
            StepOf env f body fuel R v p w ∧ Handled env f body fuel p.leaves w e₀ := by
          intro v e e₀ p w he₀ hu hx
          exact expression_step he₀.errExpr hu (fun j p' v' hj hj' => ih v j e₀ he₀ hj p' v' hfuel hj') hx
        split at h
        · cases h
        · rename_i r hr
          obtain ⟨p₁, v₁⟩ := r
          simp only at h
          obtain ⟨s₁, h₁⟩ := expressions_step t.expressions t.visited
            (fun e' he' => by
              obtain ⟨x', e'', ht, hsrc, hnv, rfl⟩ := (r2 e').1 he'
              obtain ⟨e₁, i₁, g1, g2⟩ := tracked_errVar he hi ht
              exact ⟨e'', .assigned g1 g2 hsrc hnv, Node.unparen_unparen _⟩)
            (fun v _ e e₀ p w _ => hexpr v e e₀ p w) hr
          split at h
          · cases h
          · rename_i r' hr'
            obtain ⟨p₂, v₂⟩ := r'
            simp only [pure, Except.pure] at h
            cases h
            obtain ⟨s₂, h₂⟩ := destructs_step t.destructs v₁
              (fun d hd => by
                obtain ⟨x', ht, hd'⟩ := (r3 d).1 hd
                exact ⟨x', tracked_errVar he hi ht, hd'⟩)
              (fun v _ e p w he => hexpr v e e p w he rfl) hr'
            have hseq := s₁.seq s₂
            have hrep : ∀ j, j ∈ t.outOfScope ↔ .report ⟨j.id, Msg.errorOutOfScope⟩ ∈
                (reports (t.outOfScope.map fun i => (⟨i.id, .errorOutOfScope⟩ : Diag))).leaves ∧ j ∈ t.outOfScope := by
              intro j
              refine ⟨fun hj => ⟨?_, hj⟩, And.right⟩
              rw [reports_leaves]
              exact .inr ⟨_, List.mem_map.2 ⟨j, hj, rfl⟩, rfl⟩
            -- what the tracking itself has done
            have hvar : ∀ y, y ∈ t.visited → y ∉ visited →
                VarDone env f body fuel (Plan.union (reports (t.outOfScope.map fun i => (⟨i.id, .errorOutOfScope⟩ : Diag)))
                  (.union p₁ p₂)).leaves v y := by
              intro y hy hny
              have hty : Tracked env (env.func f) body none visited i y := ((r1 y).1 hy).resolve_left hny
              refine ⟨fun e' hsrc => ?_, fun d hd => ?_⟩
              · by_cases hv : ∃ j z, VarUse env e' j z
                · obtain ⟨j, z, hv⟩ := hv
                  have huniq : ∀ k, RefersTo env e' k → k = j := by
                    rintro k (hk | ⟨_, _, hk, _⟩ | ⟨_, _, hk⟩)
                    · rw [hv.1] at hk; cases hk; rfl
                    · rw [hv.1] at hk; cases hk
                    · rw [hv.1] at hk; cases hk
                  refine ⟨fun k hk => ?_, .codes [], ?_, fun l hl => ?_⟩
                  · rw [huniq k hk]
                    refine ⟨fun hl hn z' hz' => ?_, fun hl => ?_⟩
                    · rw [hv.2.1] at hz'; cases hz'
                      refine hseq.grows z ((r1 z).2 ?_)
                      by_cases hzs : z ∈ visited
                      · exact .inl hzs
                      · exact .inr (.step hty hsrc hv hn hl hzs)
                    · have hj : j ∈ t.outOfScope := (r4 j).2 ⟨hl, .inr ⟨y, e', z, hty, hsrc, hv⟩⟩
                      have := ((hrep j).1 hj).1
                      simp only [Plan.leaves, List.mem_append]
                      exact .inl this
                  · unfold terminal; rw [hv.1]
                  · simp only [Plan.leaves, List.mem_singleton] at hl; exact .inl hl
                · have : e'.unparen ∈ t.expressions := (r2 _).2 ⟨y, e', hty, hsrc, hv, rfl⟩
                  have := (h₁ _ this).congr (Node.unparen_unparen _)
                  exact this.mono (fun l hl => by simp [Plan.leaves, hl]) s₂.grows
              · have : d ∈ t.destructs := (r3 d).2 ⟨y, hty, hd⟩
                exact (h₂ d this).mono (fun l hl => by simp [Plan.leaves, hl]) (fun _ h => h)
            have hgrow : ∀ o ∈ visited, o ∈ t.visited := fun o ho => (r1 o).2 (.inl ho)
            refine ⟨⟨fun o ho => hseq.grows o (hgrow o ho), fun y hy hny => ?_, fun y hy hny => ?_, fun l hl => ?_,
              reports_noMinus _, hseq.noMinus⟩, ?_, fun hl => ?_⟩
            · by_cases hyt : y ∈ t.visited
              · exact hvar y hyt hny
              · exact (hseq.done y hy hyt).mono (fun l hl => by
                  simp only [Plan.leaves, List.mem_append] at hl ⊢; exact .inr hl) (fun _ h => h)
            · by_cases hyt : y ∈ t.visited
              · exact tracked_errVar he hi (((r1 y).1 hyt).resolve_left hny)
              · exact hseq.vars y hy hyt
            · simp only [Plan.leaves, List.mem_append] at hl
              rcases hl with hl | hl
              · rw [reports_leaves] at hl
                rcases hl with hl | ⟨d, hd, rfl⟩
                · exact .empty hl
                · obtain ⟨j, hj, rfl⟩ := List.mem_map.1 hd
                  obtain ⟨hnl, hj⟩ := (r4 j).1 hj
                  rcases hj with rfl | ⟨x', e', y', ht, hsrc, hv⟩
                  · exact .outOfScope he hi hnl rfl
                  · obtain ⟨e₁, i₁, g1, g2⟩ := tracked_errVar he hi ht
                    exact .outOfScope (.assigned g1 g2 hsrc) (.inl hv.1) hnl rfl
              · exact hseq.just l (by simpa [Plan.leaves] using hl)
            · intro hl hn x' hx'
              rw [ho] at hx'; cases hx'
              refine hseq.grows x ((r1 x).2 ?_)
              by_cases hxs : x ∈ visited
              · exact .inl hxs
              · exact .inr (.start ho hn hl hxs)
            · have hj : i ∈ t.outOfScope := (r4 i).2 ⟨hl, .inl rfl⟩
              have := ((hrep i).1 hj).1
              simp only [Plan.leaves, List.mem_append]
              exact .inl this

end Analyse
end Serum
