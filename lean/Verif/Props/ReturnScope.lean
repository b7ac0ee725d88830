import Verif.AnalyseLeaves
import Verif.Props.Tracking

/-!
# C40 — the report about returned variables, for whole function bodies
-/

namespace Serum.Props.ReturnScope
open Serum Serum.Flow Serum.Taint Serum.Analyse

variable {env : Env} {f : FnId} {body : List Node} {fuel : Nat}

theorem returnStmts_mem {id : NodeId} {results : List Node} : ∀ (ns : List Node) {v v' : List ObjId} {q : BodyPlan},
    returnStmts env f body fuel v ns = .ok (q, v') → .ret id results ∈ ns →
    ∃ v₁ p v₂, annotatedReturn env f body fuel v₁ id results = .ok (p, v₂) ∧ ∀ l ∈ p.leaves, l ∈ q.leaves := by
  intro ns
  induction ns with
  | nil => intro v v' q _ hm; cases hm
  | cons n ns ih =>
    intro v v' q h hm
    have skip : (∀ id rs, n ≠ .ret id rs) → returnStmts env f body fuel v ns = .ok (q, v') := by
      intro hn; unfold returnStmts at h; cases n <;> first | exact h | exact absurd rfl (hn _ _)
    by_cases hn : ∃ id' rs, n = .ret id' rs
    · obtain ⟨id', rs, rfl⟩ := hn
      simp only [returnStmts, bind, Except.bind, pure, Except.pure] at h
      split at h
      · cases h
      · rename_i a ha
        split at h
        · cases h
        · rename_i b hb
          cases h
          rcases List.mem_cons.1 hm with hm | hm
          · cases hm
            exact ⟨v, a.1, a.2, ha, fun l hl => List.mem_append.2 (.inl hl)⟩
          · obtain ⟨v₁, p, v₂, h1, h2⟩ := ih (q := b.1) (v' := b.2) hb hm
            exact ⟨v₁, p, v₂, h1, fun l hl => List.mem_append.2 (.inr (h2 l hl))⟩
    · refine ih (skip fun a b c => hn ⟨a, b, c⟩) ((List.mem_cons.1 hm).resolve_left fun hc => hn ⟨_, _, hc.symm⟩)

theorem identTaint_outside {depth : Nat} {v v' : List ObjId} {i : Ident} {p : BodyPlan}
    (h : identTaint env f body fuel depth v i = .ok (p, v')) (hi : ¬ Inside env (env.func f) i) :
    .report ⟨i.id, .errorOutOfScope⟩ ∈ p.leaves := by
  cases depth with
  | zero => cases h
  | succ depth =>
    cases fuel with
    | zero => simp [identTaint, run, findSpread] at h
    | succ fuel =>
      have hout : isIdentOriginOutsideFunctionScope env (env.func f) i = true := by
        cases h : isIdentOriginOutsideFunctionScope env (env.func f) i with
        | true => rfl
        | false => exact absurd ((outside_iff i).1 h) hi
      have hr : run env (env.func f) body none (fuel + 1) v i = .ok ⟨v, [], [], [], [i]⟩ := by
        simp [run, findSpread, hout]
      simp only [identTaint, hr, expressions, destructs, bind, Except.bind, pure, Except.pure, List.map_cons, List.map_nil] at h
      cases h
      simp [reports, Plan.unions, Plan.leaves]

theorem expression_outside {v v' : List ObjId} {e : Node} {i : Ident} {p : BodyPlan} {depth : Nat}
    (h : expression env f body fuel (identTaint env f body fuel depth) v e = .ok (p, v')) (he : RefersTo env e i)
    (hi : ¬ Inside env (env.func f) i) : .report ⟨i.id, .errorOutOfScope⟩ ∈ p.leaves := by
  unfold expression at h
  rcases he with he | ⟨id, x, he, hty, hx⟩ | ⟨id, x, he⟩
  · simp only [he] at h; exact identTaint_outside h hi
  · simp only [he, hty, hx, Bool.and_self, if_true] at h; exact identTaint_outside h hi
  · simp only [he] at h; exact identTaint_outside h hi

theorem annotatedReturn_outside {v v' : List ObjId} {id : NodeId} {results : List Node} {e : Node} {i : Ident} {p : BodyPlan}
    (h : annotatedReturn env f body fuel v id results = .ok (p, v'))
    (hr : ∀ a, (getReturnStmtAnnotations (env.comments id)).1 = some a → a.shouldOverwrite = false)
    (he : ResultOf env f results e) (hi : RefersTo env e i) (ho : ¬ Inside env (env.func f) i) :
    .report ⟨i.id, .errorOutOfScope⟩ ∈ p.leaves := by
  have hstmt : ∀ {q w}, returnStmt env f body fuel v results = .ok (q, w) → .report ⟨i.id, .errorOutOfScope⟩ ∈ q.leaves := by
    intro q w hq
    unfold returnStmt at hq
    rw [resultExpression_ok.2 he] at hq
    exact expression_outside hq hi ho
  unfold annotatedReturn at h
  rcases ha : getReturnStmtAnnotations (env.comments id) with ⟨a, ds⟩
  simp only [ha] at h hr
  cases a with
  | none =>
    simp only [bind, Except.bind, pure, Except.pure] at h
    split at h
    · cases h
    · rename_i q hq; cases h
      exact List.mem_append.2 (.inr (hstmt (q := q.1) (w := q.2) hq))
  | some a =>
    simp only [hr a rfl, bind, Except.bind, pure, Except.pure, Bool.false_eq_true, if_false] at h
    split at h
    · cases h
    · rename_i q hq; cases h
      exact List.mem_append.2 (.inr (List.mem_append.2 (.inl (hstmt (q := q.1) (w := q.2) hq))))

/-- **C40.** Whenever the analysis of a function body goes through without panic, every parameter, receiver,
global, variable of an enclosing function, or unresolved name that is returned (directly, by address or as a selected
field) by one of the function's return statements is reported.  (A return statement whose codes are overwritten by an
annotation is not looked at.)  There is no hypothesis on the rest of the body. -/
theorem returned_reported (hbody : (env.func f).body = some body) (hp : (plan env fuel f).panics = false)
    {id : NodeId} {results : List Node} {e : Node} {i : Ident} (hr : Returns env body id results)
    (he : ResultOf env f results e) (hi : RefersTo env e i) (ho : ¬ Inside env (env.func f) i) :
    ⟨i.id, .errorOutOfScope⟩ ∈ (plan env fuel f).reports := by
  rw [Plan.mem_reports]
  unfold plan bodyPlan at hp ⊢
  simp only [hbody, lift] at hp ⊢
  rcases hc : extractErrorCodesFromConstructor env f body fuel with (_ | loc) | s
  all_goals simp only [hc] at hp ⊢
  any_goals (simp [Plan.panics] at hp; done)
  · simp only [bind, Except.bind, pure, Except.pure] at hp ⊢
    rcases hq : returnStmts env f body fuel [] (Node.inspectList intoReturns body) with x | ⟨q, v⟩
    · simp [hq, Plan.panics] at hp
    · simp only
      have hm : Node.ret id results ∈ Node.inspectList intoReturns body := by
        rw [intoReturns_eq]; exact (mem_inspectList _ _ _).2 hr.1
      obtain ⟨v₁, p, v₂, h1, h2⟩ := returnStmts_mem _ hq hm
      exact List.mem_append.2 (.inr (List.mem_append.2 (.inl (h2 _ (annotatedReturn_outside h1 hr.2 he hi ho)))))

/-- Reports about returned variables are justified. -/
def Outer (env : Env) (f : FnId) : BodyPlan → Prop
  | .report ⟨n, .errorOutOfScope⟩ => ∃ body e j, (env.func f).body = some body ∧ Flows env f body e ∧ RefersTo env e j ∧ j.id = n ∧
      (¬ Inside env (env.func f) j ∨ ∃ o, j.obj = some o ∧ LitParam body o)
  | _ => True

/-- **C40.** Every report about a returned variable is about an identifier whose value can become the returned error
(it is returned, or assigned — possibly through other variables — to something that is returned), and that is declared
outside the function's results and body, or is a parameter of a nested function literal. -/
theorem report_justified {n : NodeId} (h : ⟨n, .errorOutOfScope⟩ ∈ (plan env fuel f).reports) :
    ∃ body e j, (env.func f).body = some body ∧ Flows env f body e ∧ RefersTo env e j ∧ j.id = n ∧
      (¬ Inside env (env.func f) j ∨ ∃ o, j.obj = some o ∧ LitParam body o) := by
  have hs : StepProp env f (Outer env f) := by
    refine ⟨trivial, ?_, fun body e j hb he hr hj => ⟨body, e, j, hb, he, hr, rfl, hj⟩, ?_, ?_, ?_, ?_, ?_, ?_, ?_, ?_, ?_, ?_⟩
    · rintro ⟨m, msg⟩ hm
      cases msg <;> first | trivial | exact absurd rfl hm
    all_goals intros; trivial
  exact hs.plan _ ((Plan.mem_reports _).1 h)

end Serum.Props.ReturnScope
