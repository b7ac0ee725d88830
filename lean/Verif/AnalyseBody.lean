import Verif.AnalyseLemmas

/-! # The plan of a function body, exactly -/

namespace Serum
namespace Analyse
open Flow Taint

variable (env : Env) (f : FnId) (body : List Node) (fuel : Nat)

/-- What an annotation (or an impossible return statement) adds to the plan. -/
inductive Annot (l : BodyPlan) : Prop where
  | overwrite {id results a} : WithinList ofFunction (.ret id results) body →
      (getReturnStmtAnnotations (env.comments id)).1 = some a → a.shouldOverwrite = true →
      l = .codes a.overwrite → Annot l
  | add {id results a} : WithinList ofFunction (.ret id results) body →
      (getReturnStmtAnnotations (env.comments id)).1 = some a → a.shouldOverwrite = false →
      l = .codes a.addCodes → Annot l
  | diag {id results d} : WithinList ofFunction (.ret id results) body →
      d ∈ (getReturnStmtAnnotations (env.comments id)).2 → l = .report ⟨id, .annotation d⟩ → Annot l
  | bare {id results loc} : Returns env body id results →
      resultExpression (env.func f).type results = .error loc → l = .panic loc → Annot l

/-- No return statement has an annotation that removes codes. -/
def NoSub : Prop := ∀ id results a, WithinList ofFunction (.ret id results) body →
  (getReturnStmtAnnotations (env.comments id)).1 = some a → a.shouldOverwrite = false → a.subCodes = []

/-- Code `c` comes out of one return statement: it is added or stated by the annotation, or it comes out of
something flowing into the result and is not removed by the annotation. -/
inductive ReturnYields (ρ : FnId → GoString → Prop) (id : NodeId) (results : List Node) (c : GoString) : Prop where
  | overwrite {a} : (getReturnStmtAnnotations (env.comments id)).1 = some a → a.shouldOverwrite = true →
      c ∈ a.overwrite → ReturnYields ρ id results c
  | add {a} : (getReturnStmtAnnotations (env.comments id)).1 = some a → a.shouldOverwrite = false →
      c ∈ a.addCodes → ReturnYields ρ id results c
  | flow {l : BodyPlan} : Returns env body id results → Just env f body fuel (ResultOf env f results) l → l.Yields ρ c →
      c ∉ Removed env id → ReturnYields ρ id results c

variable {env f body fuel}

theorem reports_yields (ds : List Diag) (ρ : FnId → GoString → Prop) (c : GoString) : ¬ (reports ds).Yields ρ c := by
  intro h
  obtain ⟨l, hl, hc⟩ := Plan.yields_leaf h
  rw [reports_leaves] at hl
  rcases hl with rfl | ⟨d, -, rfl⟩
  · simp [Plan.Yields] at hc
  · exact hc

/-- What looking at one return statement achieves. -/
structure ReturnStep (env : Env) (f : FnId) (body : List Node) (fuel : Nat) (rets : List (NodeId × List Node))
    (visited : List ObjId) (p : BodyPlan) (v : List ObjId) : Prop where
  grows : ∀ o ∈ visited, o ∈ v
  done : ∀ x ∈ v, x ∉ visited → VarDone env f body fuel p.leaves v x
  vars : ∀ x ∈ v, x ∉ visited → ErrVar env f body x
  just : ∀ l ∈ p.leaves, Just env f body fuel (AnyResult env f body) l ∨ Annot env f body l
  noMinus : NoSub env body → p.NoMinus
  handled : ∀ r ∈ rets, Returns env body r.1 r.2 → ∀ e, resultExpression (env.func f).type r.2 = .ok e →
    Handled env f body fuel p.leaves v e
  bare : ∀ r ∈ rets, Returns env body r.1 r.2 → ∀ loc, resultExpression (env.func f).type r.2 = .error loc →
    .panic loc ∈ p.leaves
  overwrite : ∀ r ∈ rets, ∀ a, (getReturnStmtAnnotations (env.comments r.1)).1 = some a →
    a.shouldOverwrite = true → .codes a.overwrite ∈ p.leaves
  add : ∀ r ∈ rets, ∀ a, (getReturnStmtAnnotations (env.comments r.1)).1 = some a →
    a.shouldOverwrite = false → .codes a.addCodes ∈ p.leaves
  diags : ∀ r ∈ rets, ∀ d ∈ (getReturnStmtAnnotations (env.comments r.1)).2, .report ⟨r.1, .annotation d⟩ ∈ p.leaves
  kept : ∀ r ∈ rets, Returns env body r.1 r.2 → ∀ e, resultExpression (env.func f).type r.2 = .ok e →
    Handled env f body fuel (p.keep (Removed env r.1)) v e
  fresh : ∀ x ∈ v, x ∉ visited → ∃ r ∈ rets, Returns env body r.1 r.2 ∧ ErrVarFrom env f body (ResultOf env f r.2) x ∧
    VarDone env f body fuel (p.keep (Removed env r.1)) v x
  source : ∀ ρ c, p.Yields ρ c → ∃ r ∈ rets, ReturnYields env f body fuel ρ r.1 r.2 c
  stated : ∀ r ∈ rets, ∀ ρ c a, (getReturnStmtAnnotations (env.comments r.1)).1 = some a →
    c ∈ (if a.shouldOverwrite then a.overwrite else a.addCodes) → p.Yields ρ c

theorem ReturnStep.seq {rs₁ rs₂ : List (NodeId × List Node)} {v₀ v₁ v₂ : List ObjId} {p q : BodyPlan}
    (h₁ : ReturnStep env f body fuel rs₁ v₀ p v₁) (h₂ : ReturnStep env f body fuel rs₂ v₁ q v₂) :
    ReturnStep env f body fuel (rs₁ ++ rs₂) v₀ (.union p q) v₂ := by
  have l₁ : ∀ l ∈ p.leaves, l ∈ (Plan.union p q).leaves := fun l hl => by simp [Plan.leaves, hl]
  have l₂ : ∀ l ∈ q.leaves, l ∈ (Plan.union p q).leaves := fun l hl => by simp [Plan.leaves, hl]
  have t₁ : ∀ S, ∀ l ∈ p.keep S, l ∈ (Plan.union p q).keep S := fun S l hl => by simp [Plan.keep, hl]
  have t₂ : ∀ S, ∀ l ∈ q.keep S, l ∈ (Plan.union p q).keep S := fun S l hl => by simp [Plan.keep, hl]
  have source : ∀ ρ c, (Plan.union p q).Yields ρ c → ∃ r ∈ rs₁ ++ rs₂, ReturnYields env f body fuel ρ r.1 r.2 c := by
    rintro ρ c (h | h)
    · obtain ⟨r, hr, h⟩ := h₁.source ρ c h; exact ⟨r, List.mem_append_left _ hr, h⟩
    · obtain ⟨r, hr, h⟩ := h₂.source ρ c h; exact ⟨r, List.mem_append_right _ hr, h⟩
  have stated : ∀ r ∈ rs₁ ++ rs₂, ∀ ρ c a, (getReturnStmtAnnotations (env.comments r.1)).1 = some a →
      c ∈ (if a.shouldOverwrite then a.overwrite else a.addCodes) → (Plan.union p q).Yields ρ c := by
    intro r hr ρ c a ha hc
    rcases List.mem_append.1 hr with hr | hr
    · exact .inl (h₁.stated r hr ρ c a ha hc)
    · exact .inr (h₂.stated r hr ρ c a ha hc)
  have fresh : ∀ x ∈ v₂, x ∉ v₀ → ∃ r ∈ rs₁ ++ rs₂, Returns env body r.1 r.2 ∧
      ErrVarFrom env f body (ResultOf env f r.2) x ∧
      VarDone env f body fuel ((Plan.union p q).keep (Removed env r.1)) v₂ x := by
    intro x hx hn
    by_cases h : x ∈ v₁
    · obtain ⟨r, hr, h1, h2, h3⟩ := h₁.fresh x h hn
      exact ⟨r, List.mem_append_left _ hr, h1, h2, h3.mono (t₁ _) h₂.grows⟩
    · obtain ⟨r, hr, h1, h2, h3⟩ := h₂.fresh x hx h
      exact ⟨r, List.mem_append_right _ hr, h1, h2, h3.mono (t₂ _) (fun _ h => h)⟩
  refine ⟨fun o ho => h₂.grows o (h₁.grows o ho), fun x hx hn => ?_, fun x hx hn => ?_, fun l hl => ?_,
    fun hn => ⟨h₁.noMinus hn, h₂.noMinus hn⟩, fun r hr hret e he => ?_, fun r hr hret loc he => ?_,
    fun r hr a ha ho => ?_, fun r hr a ha ho => ?_, fun r hr d hd => ?_, fun r hr hret e he => ?_, fresh, source, stated⟩
  · by_cases h : x ∈ v₁
    · exact (h₁.done x h hn).mono l₁ h₂.grows
    · exact (h₂.done x hx h).mono l₂ (fun _ h => h)
  · by_cases h : x ∈ v₁
    · exact h₁.vars x h hn
    · exact h₂.vars x hx h
  · simp only [Plan.leaves, List.mem_append] at hl
    exact hl.elim (h₁.just l) (h₂.just l)
  all_goals rcases List.mem_append.1 hr with hr | hr
  · exact (h₁.handled r hr hret e he).mono l₁ h₂.grows
  · exact (h₂.handled r hr hret e he).mono l₂ (fun _ h => h)
  · exact l₁ _ (h₁.bare r hr hret loc he)
  · exact l₂ _ (h₂.bare r hr hret loc he)
  · exact l₁ _ (h₁.overwrite r hr a ha ho)
  · exact l₂ _ (h₂.overwrite r hr a ha ho)
  · exact l₁ _ (h₁.add r hr a ha ho)
  · exact l₂ _ (h₂.add r hr a ha ho)
  · exact l₁ _ (h₁.diags r hr d hd)
  · exact l₂ _ (h₂.diags r hr d hd)
  · exact (h₁.kept r hr hret e he).mono (t₁ _) h₂.grows
  · exact (h₂.kept r hr hret e he).mono (t₂ _) (fun _ h => h)

theorem annotatedReturn_step (hs : ScopeOk env f body) (hb : BodyOk body) (hfuel : enough env ≤ fuel)
    {visited : List ObjId} {id : NodeId} {results : List Node} {p : BodyPlan} {v : List ObjId}
    (hw : WithinList ofFunction (.ret id results) body)
    (h : annotatedReturn env f body fuel visited id results = .ok (p, v)) :
    ReturnStep env f body fuel [(id, results)] visited p v := by
  -- the result expression
  have ret : Returns env body id results → ∀ p v, returnStmt env f body fuel visited results = .ok (p, v) →
      (∃ loc, resultExpression (env.func f).type results = .error loc ∧ p = .panic loc ∧ v = visited) ∨
      (∃ e, resultExpression (env.func f).type results = .ok e ∧ StepOf env f body fuel (ResultOf env f results) visited p v ∧
        Handled env f body fuel p.leaves v e) := by
    intro hret p v hr
    unfold returnStmt at hr
    split at hr
    · rename_i loc hloc
      cases hr
      exact .inl ⟨loc, hloc, rfl, rfl⟩
    · rename_i e he
      have herr : ErrExprFrom env f body (ResultOf env f results) e := .root (resultExpression_ok.1 he)
      refine .inr ⟨e, he, expression_step herr rfl (fun i p v hi hp => ?_) hr⟩
      exact identTaint_step hs.before (fun e i he hi => hs.clean e i (he.mono fun _ h => ⟨id, results, hret, h⟩) hi)
        hb _ _ _ e (.root (resultExpression_ok.1 he)) hi p v hfuel hp
  unfold annotatedReturn at h
  split at h
  rename_i annotation ds hann
  have hann1 : (getReturnStmtAnnotations (env.comments id)).1 = annotation := by rw [hann]
  have hann2 : (getReturnStmtAnnotations (env.comments id)).2 = ds := by rw [hann]
  have hds : ∀ l, l ∈ (reports (ds.map fun d => ⟨id, .annotation d⟩)).leaves →
      Just env f body fuel (AnyResult env f body) l ∨ Annot env f body l := by
    intro l hl
    rw [reports_leaves] at hl
    rcases hl with hl | ⟨d, hd, hl⟩
    · exact .inl (.empty hl)
    · obtain ⟨d', hd', rfl⟩ := List.mem_map.1 hd
      exact .inr (.diag hw (hann2 ▸ hd') hl)
  have hdiags : ∀ d ∈ ds, .report ⟨id, .annotation d⟩ ∈ (reports (ds.map fun d => (⟨id, .annotation d⟩ : Diag))).leaves := by
    intro d hd
    rw [reports_leaves]
    exact .inr ⟨_, List.mem_map.2 ⟨d, hd, rfl⟩, rfl⟩
  simp only at h
  -- a return statement whose result expression is looked at
  have look : ∀ (p q : BodyPlan) (v : List ObjId), Returns env body id results →
      returnStmt env f body fuel visited results = .ok (p, v) →
      (∀ l ∈ q.leaves, l ∈ (reports (ds.map fun d => (⟨id, .annotation d⟩ : Diag))).leaves ∨ l ∈ p.leaves ∨
        (∃ a, annotation = some a ∧ a.shouldOverwrite = false ∧ l = .codes a.addCodes)) →
      (∀ l, l ∈ p.leaves → l ∈ q.leaves) →
      (∀ l, l ∈ (reports (ds.map fun d => (⟨id, .annotation d⟩ : Diag))).leaves → l ∈ q.leaves) →
      (∀ a, annotation = some a → a.shouldOverwrite = false ∧ .codes a.addCodes ∈ q.leaves) →
      (NoSub env body → p.NoMinus → q.NoMinus) →
      (p.NoMinus → ∀ l ∈ p.leaves, l ∈ q.keep (Removed env id)) →
      (∀ ρ c, q.Yields ρ c → (p.Yields ρ c ∧ c ∉ Removed env id) ∨
        ∃ a, annotation = some a ∧ a.shouldOverwrite = false ∧ c ∈ a.addCodes) →
      (∀ a, annotation = some a → ∀ (ρ : FnId → GoString → Prop) c, c ∈ a.addCodes → q.Yields ρ c) →
      ReturnStep env f body fuel [(id, results)] visited q v := by
    intro p q v hret hr hq hp hd ha hnm htop hy hst
    have stated : ∀ r ∈ [(id, results)], ∀ (ρ : FnId → GoString → Prop) c a, (getReturnStmtAnnotations (env.comments r.1)).1 = some a →
        c ∈ (if a.shouldOverwrite then a.overwrite else a.addCodes) → q.Yields ρ c := by
      intro r hr ρ c a h1 h2
      simp only [List.mem_singleton] at hr
      subst hr
      rw [hann1] at h1
      simp only [(ha a h1).1, Bool.false_eq_true, if_false] at h2
      exact hst a h1 ρ c h2
    have source : (∀ l ∈ p.leaves, (∃ loc, l = .panic loc) ∨ Just env f body fuel (ResultOf env f results) l) →
        ∀ ρ c, q.Yields ρ c → ∃ r ∈ [(id, results)], ReturnYields env f body fuel ρ r.1 r.2 c := by
      intro hj ρ c h
      refine ⟨_, List.mem_singleton.2 rfl, ?_⟩
      rcases hy ρ c h with ⟨h1, h2⟩ | ⟨a, h1, h2, h3⟩
      · obtain ⟨l, hl, hc⟩ := Plan.yields_leaf h1
        rcases hj l hl with ⟨loc, rfl⟩ | hj
        · exact hc.elim
        · exact .flow hret hj hc h2
      · exact .add (hann1.trans h1) h2 h3
    have hany : ∀ e, ResultOf env f results e → AnyResult env f body e := fun _ h => ⟨id, results, hret, h⟩
    have one : ∀ r ∈ [(id, results)], r = (id, results) := by simp
    rcases ret hret p v hr with ⟨loc, hloc, rfl, rfl⟩ | ⟨e, he, hstep, hh⟩
    · refine ⟨fun _ h => h, fun x h hn => absurd h hn, fun x h hn => absurd h hn, fun l hl => ?_, fun hn => hnm hn trivial,
        fun r hr _ e he => ?_, fun r hr _ loc' he => ?_, fun r hr a h1 h2 => ?_, fun r hr a h1 h2 => ?_, fun r hr d h1 => ?_,
        fun r hr _ e he => ?_, fun x h hn => absurd h hn,
        source (fun l hl => .inl ⟨loc, by simpa [Plan.leaves] using hl⟩), stated⟩
      · rcases hq l hl with hl | hl | ⟨a, h1, h2, h3⟩
        · exact hds l hl
        · simp only [Plan.leaves, List.mem_singleton] at hl
          exact .inr (.bare hret hloc hl)
        · exact .inr (.add hw (hann1.trans h1) h2 h3)
      all_goals rw [one r hr] at *
      · simp only at he; rw [hloc] at he; cases he
      · simp only at he; rw [hloc] at he; cases he; exact hp _ (by simp [Plan.leaves])
      · simp only [hann1] at h1; rw [(ha a h1).1] at h2; cases h2
      · simp only [hann1] at h1; exact (ha a h1).2
      · simp only [hann2] at h1; exact hd _ (hdiags d h1)
      · simp only at he; rw [hloc] at he; cases he
    · refine ⟨hstep.grows, fun x hx hn => (hstep.done x hx hn).mono hp (fun _ h => h), fun x hx hn => (hstep.vars x hx hn).mono hany, fun l hl => ?_,
        fun hn => hnm hn hstep.noMinus,
        fun r hr _ e' he' => ?_, fun r hr _ loc' he' => ?_, fun r hr a h1 h2 => ?_, fun r hr a h1 h2 => ?_, fun r hr d h1 => ?_,
        fun r hr _ e' he' => ?_, fun x hx hn => ?_,
        source (fun l hl => .inr (hstep.just l hl)), stated⟩
      · rcases hq l hl with hl | hl | ⟨a, h1, h2, h3⟩
        · exact hds l hl
        · exact .inl ((hstep.just l hl).mono hany)
        · exact .inr (.add hw (hann1.trans h1) h2 h3)
      case inr.refine_8 =>
        exact ⟨(id, results), by simp, hret, hstep.vars x hx hn, (hstep.done x hx hn).mono (htop hstep.noMinus) (fun _ h => h)⟩
      all_goals rw [one r hr] at *
      · simp only at he'; rw [he] at he'; cases he'; exact hh.mono hp (fun _ h => h)
      · simp only at he'; rw [he] at he'; cases he'
      · simp only [hann1] at h1; rw [(ha a h1).1] at h2; cases h2
      · simp only [hann1] at h1; exact (ha a h1).2
      · simp only [hann2] at h1; exact hd _ (hdiags d h1)
      · simp only at he'; rw [he] at he'; cases he'
        exact hh.mono (htop hstep.noMinus) (fun _ h => h)
  cases annotation with
  | none =>
    simp only [bind, Except.bind] at h
    split at h
    · cases h
    · rename_i r hr
      obtain ⟨p', v'⟩ := r
      simp only [pure, Except.pure] at h
      cases h
      refine look p' _ v ⟨hw, fun a ha => by rw [hann1] at ha; cases ha⟩ hr (fun l hl => ?_) (fun l hl => ?_) (fun l hl => ?_)
        (fun a ha => by cases ha) (fun _ h => ⟨reports_noMinus _, h⟩)
        (fun h l hl => by simp only [Plan.keep, List.mem_append, Plan.keep_of_noMinus _ h]; exact .inr hl)
        (fun ρ c h => .inl ⟨h.resolve_left (reports_yields _ _ _), by simp [Removed, hann1]⟩) (fun a ha => by cases ha)
      · simp only [Plan.leaves, List.mem_append] at hl
        exact hl.elim .inl (fun h => .inr (.inl h))
      · simp only [Plan.leaves, List.mem_append]; exact .inr hl
      · simp only [Plan.leaves, List.mem_append]; exact .inl hl
  | some a =>
    simp only at h
    by_cases ho : a.shouldOverwrite = true
    · simp only [ho, if_true, pure, Except.pure] at h
      cases h
      have one : ∀ r ∈ [(id, results)], r = (id, results) := by simp
      have nret : ¬ Returns env body id results := fun hret => by
        have := hret.2 a hann1; rw [ho] at this; cases this
      refine ⟨fun _ h => h, fun x h hn => absurd h hn, fun x h hn => absurd h hn, fun l hl => ?_,
        fun _ => ⟨reports_noMinus _, trivial⟩, fun r hr hret => ?_, fun r hr hret => ?_, fun r hr a' h1 h2 => ?_,
        fun r hr a' h1 h2 => ?_, fun r hr d h1 => ?_, fun r hr hret => ?_, fun x h hn => absurd h hn,
        fun ρ c h => ⟨_, List.mem_singleton.2 rfl, .overwrite hann1 ho (h.resolve_left (reports_yields _ _ _))⟩,
        fun r hr ρ c a' h1 h2 => ?_⟩
      · simp only [Plan.leaves, List.mem_append, List.mem_singleton] at hl
        rcases hl with hl | hl
        · exact hds l hl
        · exact .inr (.overwrite hw hann1 ho hl)
      all_goals rw [one r hr] at *
      · exact absurd hret nret
      · exact absurd hret nret
      · simp only [hann1] at h1; cases h1; simp [Plan.leaves]
      · simp only [hann1] at h1; cases h1; rw [ho] at h2; cases h2
      · simp only [hann2] at h1
        simp only [Plan.leaves, List.mem_append]
        exact .inl (hdiags d h1)
      · exact absurd hret nret
      · simp only [hann1] at h1; cases h1; simp only [ho, if_true] at h2; exact .inr h2
    · simp only [ho, bind, Except.bind] at h
      simp only [Bool.not_eq_true] at ho
      rw [if_neg (by simp)] at h
      split at h
      · cases h
      · rename_i r hr
        obtain ⟨p', v'⟩ := r
        simp only [pure, Except.pure] at h
        cases h
        refine look p' _ v ⟨hw, fun a' ha => by rw [hann1] at ha; cases ha; exact ho⟩ hr (fun l hl => ?_) (fun l hl => ?_)
          (fun l hl => ?_) (fun a' ha => ?_) (fun hn h => ⟨reports_noMinus _, ⟨h, hn id results a hw hann1 ho⟩, trivial⟩)
          (fun h l hl => by
            have : Removed env id = a.subCodes := by simp [Removed, hann1, ho]
            simp only [Plan.keep, List.mem_append, Plan.keep_of_noMinus _ h, this]
            rw [if_pos (fun _ h => h)]; exact .inr (.inl hl))
          (fun ρ c h => by
            have : Removed env id = a.subCodes := by simp [Removed, hann1, ho]
            rcases h.resolve_left (reports_yields _ _ _) with h | h
            · exact .inl ⟨h.1, this ▸ h.2⟩
            · exact .inr ⟨a, rfl, ho, h⟩)
          (fun a' ha ρ c h => by cases ha; exact .inr (.inr h))
        · simp only [Plan.leaves, List.mem_append, List.mem_singleton] at hl
          rcases hl with hl | hl | hl
          · exact .inl hl
          · exact .inr (.inl hl)
          · exact .inr (.inr ⟨a, rfl, ho, hl⟩)
        · simp only [Plan.leaves, List.mem_append]; exact .inr (.inl hl)
        · simp only [Plan.leaves, List.mem_append]; exact .inl hl
        · cases ha; exact ⟨ho, by simp [Plan.leaves]⟩

/-- The return statements among some nodes. -/
def retsOf : List Node → List (NodeId × List Node)
  | [] => []
  | .ret id rs :: ns => (id, rs) :: retsOf ns
  | _ :: ns => retsOf ns

theorem mem_retsOf {id : NodeId} {rs : List Node} : ∀ ns : List Node, (id, rs) ∈ retsOf ns ↔ .ret id rs ∈ ns := by
  intro ns
  induction ns with
  | nil => simp [retsOf]
  | cons n ns ih => cases n <;> simp [retsOf, ih]

theorem returnStmts_step (hs : ScopeOk env f body) (hb : BodyOk body) (hfuel : enough env ≤ fuel) :
    ∀ (ns : List Node), (∀ n ∈ ns, WithinList ofFunction n body) → ∀ {visited : List ObjId} {p : BodyPlan} {v : List ObjId},
    returnStmts env f body fuel visited ns = .ok (p, v) →
    ReturnStep env f body fuel (retsOf ns) visited p v := by
  intro ns
  induction ns with
  | nil =>
    intro _ visited p v h
    simp only [returnStmts] at h
    cases h
    refine ⟨fun _ h => h, fun x h hn => absurd h hn, fun x h hn => absurd h hn, fun l hl => ?_, fun _ => trivial,
      by simp [retsOf], by simp [retsOf], by simp [retsOf], by simp [retsOf], by simp [retsOf], by simp [retsOf],
      fun x h hn => absurd h hn, fun ρ c h => by simp [Plan.Yields] at h, by simp [retsOf]⟩
    simp only [Plan.leaves, List.mem_singleton] at hl
    exact .inl (.empty hl)
  | cons n ns ih =>
    intro hw visited p v h
    have ih' := @ih (fun m hm => hw m (by simp [hm]))
    cases n with
    | ret id results =>
      simp only [returnStmts, bind, Except.bind] at h
      split at h
      · cases h
      · rename_i r hr
        obtain ⟨p₁, v₁⟩ := r
        simp only at h
        split at h
        · cases h
        · rename_i r' hr'
          obtain ⟨p₂, v₂⟩ := r'
          simp only [pure, Except.pure] at h
          cases h
          have := (annotatedReturn_step hs hb hfuel (hw _ (by simp)) hr).seq (ih' hr')
          simpa [retsOf] using this
    | _ => exact ih' h

variable (env f body fuel) in
/-- The steps of a function body, stated without reference to the order in which things are visited. -/
inductive BodyLeaf (paramCodes : Founds) (l : BodyPlan) : Prop where
  | param : l ∈ (founds paramCodes).leaves → BodyLeaf paramCodes l
  | just : Just env f body fuel (AnyResult env f body) l → BodyLeaf paramCodes l
  | annot : Annot env f body l → BodyLeaf paramCodes l
  | field {x} : ErrVar env f body x → l ∈ (fieldAssignments env f x (Node.inspectList intoFields body)).leaves →
      BodyLeaf paramCodes l

theorem fieldAssignment_noMinus (x : ObjId) (len : Nat) (rhs : List Node) :
    ∀ (ls : List Node) (et : Option ErrorType) (i : Nat), (fieldAssignment env f x len rhs et i ls).NoMinus := by
  intro ls
  induction ls with
  | nil => intro et i; exact trivial
  | cons l ls ih =>
    intro et i
    unfold fieldAssignment
    repeat' split
    all_goals first
      | exact trivial
      | exact ih _ _
      | exact ⟨trivial, ih _ _⟩
      | exact ⟨foundCode_noMinus _, ih _ _⟩

theorem fieldAssignments_noMinus (x : ObjId) : ∀ ns : List Node, (fieldAssignments env f x ns).NoMinus := by
  intro ns
  induction ns with
  | nil => exact trivial
  | cons n ns ih =>
    cases n with
    | assign id lhs rhs => exact ⟨fieldAssignment_noMinus _ _ _ _ _ _, ih⟩
    | _ => exact ih

/-- The parts of the plan of a function body. -/
theorem bodyPlan_shape (hbody : (env.func f).body = some body) (hs : ScopeOk env f body) (hb : BodyOk body)
    (hfuel : enough env ≤ fuel) {paramCodes : Founds}
    (hparam : extractErrorCodesFromConstructor env f body fuel = .ok paramCodes) {p : BodyPlan}
    (h : bodyPlan env fuel f = .ok p) :
    ∃ q v, p = .union (founds paramCodes) (.union q (assignedFields env f body v)) ∧
      ReturnStep env f body fuel (retsOf (Node.inspectList intoReturns body)) [] q v := by
  unfold bodyPlan at h
  simp only [hbody, hparam, lift, bind, Except.bind] at h
  split at h
  · cases h
  · rename_i r hr
    obtain ⟨q, v⟩ := r
    simp only [pure, Except.pure] at h
    cases h
    exact ⟨q, v, rfl, returnStmts_step hs hb hfuel _ (fun n hn => (mem_inspectList _ _ _).1 hn) hr⟩

theorem mem_rets {id : NodeId} {rs : List Node} (hw : WithinList ofFunction (.ret id rs) body) :
    (id, rs) ∈ retsOf (Node.inspectList intoReturns body) :=
  (mem_retsOf _).2 ((mem_inspectList _ _ _).2 hw)

theorem Handled.ref {L : List BodyPlan} {v : List ObjId} {e : Node} (he : Handled env f body fuel L v e) {i : Ident}
    {x : ObjId} (hv : VarRef env f body e i x) : x ∈ v :=
  (he.1 i hv.1).1 hv.2.2.2 hv.2.2.1 x hv.2.1

/-- Every error expression has been looked at. -/
theorem ReturnStep.errExpr {q : BodyPlan} {v : List ObjId}
    (hret : ReturnStep env f body fuel (retsOf (Node.inspectList intoReturns body)) [] q v) {e : Node}
    (he : ErrExpr env f body e) : Handled env f body fuel q.leaves v e := by
  have hdone : ∀ x ∈ v, VarDone env f body fuel q.leaves v x := fun x hx => hret.done x hx (by simp)
  induction he with
  | root hr => obtain ⟨id, rs, hr, he⟩ := hr; exact hret.handled _ (mem_rets hr.1) hr _ (resultExpression_ok.2 he)
  | assigned _ hv hsrc ih => exact (hdone _ (ih.ref hv)).1 _ hsrc
  | asserted _ hv hd hu ih => exact ((hdone _ (ih.ref hv)).2 _ hd).1 _ _ _ hu

/-- The visited variables are the error variables. -/
theorem ReturnStep.visited {q : BodyPlan} {v : List ObjId}
    (hret : ReturnStep env f body fuel (retsOf (Node.inspectList intoReturns body)) [] q v) {x : ObjId} :
    x ∈ v ↔ ErrVar env f body x :=
  ⟨fun hx => hret.vars x hx (by simp), fun ⟨_, _, he, hv⟩ => (hret.errExpr he).ref hv⟩

/-- A variable flowing into two return statements is not subject to removal in one of them only. -/
def Separate (env : Env) (f : FnId) (body : List Node) : Prop :=
  ∀ id results id' results' x, Returns env body id results → Returns env body id' results' → id ≠ id' →
    ErrVarFrom env f body (ResultOf env f results) x → ErrVarFrom env f body (ResultOf env f results') x →
    Removed env id' = []

/-- From what flows into a return statement at most the codes removed by its own annotation are removed. -/
theorem ReturnStep.separate {q : BodyPlan} {v : List ObjId}
    (hret : ReturnStep env f body fuel (retsOf (Node.inspectList intoReturns body)) [] q v)
    (hsep : Separate env f body)
    {id : NodeId} {results : List Node} (hr : Returns env body id results) :
    (∀ e, ErrExprFrom env f body (ResultOf env f results) e → Handled env f body fuel (q.keep (Removed env id)) v e) ∧
    (∀ x, ErrVarFrom env f body (ResultOf env f results) x → VarDone env f body fuel (q.keep (Removed env id)) v x) := by
  have hdone : ∀ x ∈ v, ErrVarFrom env f body (ResultOf env f results) x →
      VarDone env f body fuel (q.keep (Removed env id)) v x := by
    intro x hx hc
    obtain ⟨r, -, h1, h2, h3⟩ := hret.fresh x hx (by simp)
    refine h3.mono (fun l => Plan.keep_mono fun c hc' => ?_) (fun _ h => h)
    by_cases hid : id = r.1
    · rw [hid]; exact hc'
    · rw [hsep id results r.1 r.2 x hr h1 hid hc h2] at hc'; simp at hc'
  have hexpr : ∀ e, ErrExprFrom env f body (ResultOf env f results) e →
      Handled env f body fuel (q.keep (Removed env id)) v e := by
    intro e he
    induction he with
    | root he => exact hret.kept _ (mem_rets hr.1) hr _ (resultExpression_ok.2 he)
    | assigned h hv hsrc ih => exact (hdone _ (ih.ref hv) ⟨_, _, h, hv⟩).1 _ hsrc
    | asserted h hv hd hu ih => exact ((hdone _ (ih.ref hv) ⟨_, _, h, hv⟩).2 _ hd).1 _ _ _ hu
  exact ⟨hexpr, fun x hx => hdone x (let ⟨e, i, he, hv⟩ := hx; (hexpr e he).ref hv) hx⟩

/-- The plan of a function body: what it consists of does not depend on the traversal. -/
theorem bodyPlan_spec (hbody : (env.func f).body = some body) (hs : ScopeOk env f body) (hb : BodyOk body)
    (hfuel : enough env ≤ fuel) {paramCodes : Founds}
    (hparam : extractErrorCodesFromConstructor env f body fuel = .ok paramCodes) {p : BodyPlan}
    (h : bodyPlan env fuel f = .ok p) :
    (∀ l, l ≠ .codes [] → (l ∈ p.leaves ↔ BodyLeaf env f body fuel paramCodes l)) ∧
    (NoSub env body → p.NoMinus) := by
  obtain ⟨q, v, rfl, hret⟩ := bodyPlan_shape hbody hs hb hfuel hparam h
  have hdone : ∀ x ∈ v, VarDone env f body fuel q.leaves v x := fun x hx => hret.done x hx (by simp)
  have hexpr := fun e (he : ErrExpr env f body e) => hret.errExpr he
  have hvar := fun x => hret.visited (x := x)
  refine ⟨fun l hl => ⟨fun hm => ?_, fun hm => ?_⟩, fun hn => ⟨founds_noMinus _, hret.noMinus hn, ?_⟩⟩
  · simp only [Plan.leaves, List.mem_append] at hm
    rcases hm with hm | hm | hm
    · exact .param hm
    · exact (hret.just l hm).elim .just .annot
    · unfold assignedFields at hm
      rw [Plan.unions_leaves] at hm
      rcases hm with hm | ⟨q', hq', hm⟩
      · exact absurd hm hl
      · obtain ⟨x, hx, rfl⟩ := List.mem_map.1 hq'
        exact .field ((hvar x).1 ((env.fieldOrder_perm _ _).mem_iff.1 hx)) hm
  · have inq : l ∈ q.leaves → l ∈ (Plan.union (founds paramCodes) (.union q (assignedFields env f body v))).leaves := by
      intro h; simp only [Plan.leaves, List.mem_append]; exact .inr (.inl h)
    cases hm with
    | param h => simp only [Plan.leaves, List.mem_append]; exact .inl h
    | just h =>
      cases h with
      | empty h => exact absurd h hl
      | terminal he ht hl' =>
        obtain ⟨q', hq', hin⟩ := (hexpr _ he).2
        rw [ht] at hq'; cases hq'
        exact inq ((hin l hl').resolve_left hl)
      | destruct hx hd ht hl' =>
        obtain ⟨q', hq', hin⟩ := ((hdone _ ((hvar _).2 hx)).2 _ hd).2
        rw [ht] at hq'; cases hq'
        exact inq ((hin l hl').resolve_left hl)
      | outOfScope he hi hnl h =>
        rw [h] at hl ⊢
        exact h ▸ inq (h ▸ ((hexpr _ he).1 _ hi).2 hnl)
    | annot h =>
      cases h with
      | overwrite hw ha ho h => exact inq (h ▸ hret.overwrite _ (mem_rets hw) _ ha ho)
      | add hw ha ho h => exact inq (h ▸ hret.add _ (mem_rets hw) _ ha ho)
      | diag hw hd h => exact inq (h ▸ hret.diags _ (mem_rets hw) _ hd)
      | bare hr he h => exact inq (h ▸ hret.bare _ (mem_rets hr.1) hr _ he)
    | field hx h =>
      simp only [Plan.leaves, List.mem_append]
      refine .inr (.inr ?_)
      unfold assignedFields
      rw [Plan.unions_leaves]
      exact .inr ⟨_, List.mem_map.2 ⟨_, (env.fieldOrder_perm _ _).mem_iff.2 ((hvar _).2 hx), rfl⟩, h⟩
  · unfold assignedFields
    refine unions_noMinus _ fun q' hq' => ?_
    obtain ⟨x, _, rfl⟩ := List.mem_map.1 hq'
    exact fieldAssignments_noMinus _ _

/-- What comes out of the return statements together. -/
theorem ReturnStep.yields {q : BodyPlan} {v : List ObjId}
    (hret : ReturnStep env f body fuel (retsOf (Node.inspectList intoReturns body)) [] q v) (hsep : Separate env f body)
    (ρ : FnId → GoString → Prop) (c : GoString) :
    q.Yields ρ c ↔ ∃ id results, WithinList ofFunction (.ret id results) body ∧
      ReturnYields env f body fuel ρ id results c := by
  constructor
  · intro h
    obtain ⟨r, hr, h⟩ := hret.source ρ c h
    exact ⟨r.1, r.2, (mem_inspectList _ _ _).1 ((mem_retsOf _).1 hr), h⟩
  · rintro ⟨id, results, hw, h⟩
    cases h with
    | overwrite ha ho hc => exact hret.stated _ (mem_rets hw) ρ c _ ha (by simp only [ho, if_true]; exact hc)
    | add ha ho hc => exact hret.stated _ (mem_rets hw) ρ c _ ha (by simpa [ho] using hc)
    | @flow l hr hj hc hn =>
      obtain ⟨h1, h2⟩ := hret.separate hsep hr
      cases hj with
      | empty h => rw [h] at hc; simp [Plan.Yields] at hc
      | terminal he ht hl =>
        obtain ⟨q', hq', hin⟩ := (h1 _ he).2
        rw [ht] at hq'; cases hq'
        rcases hin l hl with rfl | hin
        · simp [Plan.Yields] at hc
        · exact Plan.keep_yields hn hc hin
      | destruct hx hd ht hl =>
        obtain ⟨q', hq', hin⟩ := ((h2 _ hx).2 _ hd).2
        rw [ht] at hq'; cases hq'
        rcases hin l hl with rfl | hin
        · simp [Plan.Yields] at hc
        · exact Plan.keep_yields hn hc hin
      | outOfScope he hi hnl h => rw [h] at hc; exact hc.elim

theorem founds_yields (x : Founds) (ρ : FnId → GoString → Prop) (c : GoString) : (founds x).Yields ρ c ↔ c ∈ x.1 :=
  ⟨fun h => h.resolve_left (reports_yields _ _ _), fun h => .inr h⟩

theorem unions_yields (ρ : FnId → GoString → Prop) (c : GoString) : ∀ ps : List BodyPlan,
    (Plan.unions ps).Yields ρ c ↔ ∃ p ∈ ps, p.Yields ρ c
  | [] => by simp [Plan.unions, Plan.Yields]
  | p :: ps => by simp [Plan.unions, Plan.Yields, unions_yields ρ c ps]

/-- What comes out of a function body. -/
theorem bodyPlan_yields (hbody : (env.func f).body = some body) (hs : ScopeOk env f body) (hb : BodyOk body)
    (hfuel : enough env ≤ fuel) (hsep : Separate env f body) {paramCodes : Founds}
    (hparam : extractErrorCodesFromConstructor env f body fuel = .ok paramCodes) {p : BodyPlan}
    (h : bodyPlan env fuel f = .ok p) (ρ : FnId → GoString → Prop) (c : GoString) :
    p.Yields ρ c ↔ c ∈ paramCodes.1 ∨
      (∃ id results, WithinList ofFunction (.ret id results) body ∧ ReturnYields env f body fuel ρ id results c) ∨
      (∃ x, ErrVar env f body x ∧ (fieldAssignments env f x (Node.inspectList intoFields body)).Yields ρ c) := by
  obtain ⟨q, v, rfl, hret⟩ := bodyPlan_shape hbody hs hb hfuel hparam h
  show (founds paramCodes).Yields ρ c ∨ q.Yields ρ c ∨ (assignedFields env f body v).Yields ρ c ↔ _
  rw [founds_yields, hret.yields hsep, assignedFields, unions_yields]
  refine or_congr Iff.rfl (or_congr Iff.rfl ?_)
  simp only [List.mem_map]
  constructor
  · rintro ⟨_, ⟨x, hx, rfl⟩, h⟩; exact ⟨x, hret.visited.1 ((env.fieldOrder_perm _ _).mem_iff.1 hx), h⟩
  · rintro ⟨x, hx, h⟩; exact ⟨_, ⟨x, (env.fieldOrder_perm _ _).mem_iff.2 (hret.visited.2 hx), rfl⟩, h⟩

/-- An error expression flows into some return statement. -/
theorem errExpr_from {e : Node} (he : ErrExpr env f body e) : ∃ id results, Returns env body id results ∧
    ErrExprFrom env f body (ResultOf env f results) e := by
  induction he with
  | root h => obtain ⟨id, results, h1, h2⟩ := h; exact ⟨id, results, h1, .root h2⟩
  | assigned _ hv hs ih => obtain ⟨id, results, h1, h2⟩ := ih; exact ⟨id, results, h1, .assigned h2 hv hs⟩
  | asserted _ hv hd hu ih => obtain ⟨id, results, h1, h2⟩ := ih; exact ⟨id, results, h1, .asserted h2 hv hd hu⟩

theorem errVar_iff {x : ObjId} : ErrVar env f body x ↔ ∃ id results, Returns env body id results ∧
    ErrVarFrom env f body (ResultOf env f results) x := by
  constructor
  · rintro ⟨e, i, he, hv⟩
    obtain ⟨id, results, h1, h2⟩ := errExpr_from he
    exact ⟨id, results, h1, e, i, h2, hv⟩
  · rintro ⟨id, results, h1, h2⟩
    exact h2.mono fun e he => ⟨id, results, h1, he⟩

end Analyse
end Serum
