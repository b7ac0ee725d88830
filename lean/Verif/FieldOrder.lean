import Verif.RunStages

/-!
# The order in which the fields of errors are looked at

`visitedIdents` is a Go map (analyse.go:845).  Bodies looked at in another order give plans in which some parts without calls are
rearranged; executing them gives the same codes, and the same diagnostics in another order.
-/

namespace Serum

/-- The environment of a run in which the Go runtime picks another order. -/
def Env.reordered (env : Env) (o : FnId → List ObjId → List ObjId) (h : ∀ f v, (o f v).Perm v) : Env :=
  { env with fieldOrder := o, fieldOrder_perm := h }

/-- The same package, in a run in which the Go runtime picks another order. -/
def Package.reordered (P : Package) (o : FnId → List ObjId → List ObjId) (h : ∀ f v, (o f v).Perm v) : Package :=
  { P with env := P.env.reordered o h }

/-- The same members. -/
def SameCodes (a b : CodeSet) : Prop := ∀ c, c ∈ a ↔ c ∈ b

/-- Two plans which differ in the order of parts without calls. -/
inductive Plan.Rearranged {N D : Type} : Plan N D → Plan N D → Prop where
  | refl (p) : Rearranged p p
  | union {a a' b b'} : Rearranged a a' → Rearranged b b' → Rearranged (.union a b) (.union a' b')
  | perm {ps qs} : ps.Perm qs → (∀ p ∈ ps, p.targets = []) → Rearranged (.unions ps) (.unions qs)

namespace Search
variable {N D : Type} [DecidableEq N]

/-- The same state, except for the order of diagnostics and the order within code sets. -/
structure Same (a b : Search N D) : Prop where
  scc : a.scc = b.scc
  found : ∀ f, (a.found f = none ∧ b.found f = none) ∨ ∃ s t, a.found f = some s ∧ b.found f = some t ∧ SameCodes s t
  diags : a.diags.Perm b.diags
  comps : a.comps = b.comps

/-- The same result. -/
def SameResult (x y : CodeSet × Search N D) : Prop := SameCodes x.1 y.1 ∧ Same x.2 y.2

theorem Same.rfl' (a : Search N D) : Same a a where
  scc := rfl
  found := fun f => by
    cases h : a.found f with
    | none => exact .inl ⟨rfl, rfl⟩
    | some s => exact .inr ⟨s, s, rfl, rfl, fun _ => Iff.rfl⟩
  diags := .refl _
  comps := rfl

theorem Same.getD {a b : Search N D} (h : Same a b) (f : N) : SameCodes ((a.found f).getD []) ((b.found f).getD []) := by
  rcases h.found f with ⟨h1, h2⟩ | ⟨s, t, h1, h2, h3⟩
  · rw [h1, h2]; exact fun _ => Iff.rfl
  · rw [h1, h2]; exact h3

theorem Same.setFound {a b : Search N D} (h : Same a b) (f : N) {s t : CodeSet} (hs : SameCodes s t) :
    Same (a.setFound f s) (b.setFound f t) where
  scc := h.scc
  found := fun g => by
    unfold Search.setFound
    by_cases hg : g = f
    · simp only [hg, if_true]; exact .inr ⟨s, t, rfl, rfl, hs⟩
    · simp only [hg, if_false]; exact h.found g
  diags := h.diags
  comps := h.comps

theorem Same.withScc {a b : Search N D} (h : Same a b) (scc : Scc N) : Same { a with scc := scc } { b with scc := scc } :=
  ⟨rfl, h.found, h.diags, h.comps⟩

theorem same_unify {a b : Search N D} (h : Same a b) (component : List N) : SameResult (a.unify component) (b.unify component) := by
  have h1 : ∀ (l : List N) (r r' : CodeSet), SameCodes r r' →
      SameCodes (l.foldl (fun r f => CodeSet.union r ((a.found f).getD [])) r) (l.foldl (fun r f => CodeSet.union r ((b.found f).getD [])) r') := by
    intro l
    induction l with
    | nil => intro r r' hr; exact hr
    | cons f l ih =>
      intro r r' hr
      refine ih _ _ fun c => ?_
      simp only [CodeSet.mem_union]
      rw [hr c, h.getD f c]
  have h2 : ∀ (l : List N) (a b : Search N D) (s t : CodeSet), SameCodes s t → Same a b →
      Same (l.foldl (fun st f => st.setFound f s) a) (l.foldl (fun st f => st.setFound f t) b) := by
    intro l
    induction l with
    | nil => intro a b s t _ hab; exact hab
    | cons f l ih => intro a b s t hs hab; exact ih _ _ s t hs (hab.setFound f hs)
  have h3 := h1 component [] [] fun _ => Iff.rfl
  exact ⟨h3, h2 component a b _ _ h3 h⟩

/-- A part without calls: it panics, or adds its diagnostics and yields its codes. -/
theorem exec_flat (recurse : N → Search N D → Except Stop (CodeSet × Search N D)) (cur : N) : ∀ (p : Plan N D), p.targets = [] → ∀ st,
    (p.panics = true → ∀ r, exec recurse cur p st ≠ .ok r) ∧
    (p.panics = false → ∃ s, exec recurse cur p st = .ok (s, { st with diags := st.diags ++ p.reports.map fun d => (cur, d) }) ∧
      ∀ c, c ∈ s ↔ p.Yields (fun _ _ => False) c)
  | .codes s, _, st => by simp [Plan.panics, exec, Plan.reports, Plan.Yields]
  | .report d, _, st => by simp [Plan.panics, exec, Plan.reports, Plan.Yields]
  | .panic loc, _, st => by simp [Plan.panics, exec]
  | .call g, h, _ => by simp [Plan.targets] at h
  | .visit g, h, _ => by simp [Plan.targets] at h
  | .union a b, h, st => by
    simp only [Plan.targets, List.append_eq_nil_iff] at h
    simp only [exec, bind, Except.bind]
    have iha := exec_flat recurse cur a h.1 st
    cases ha : a.panics with
    | true =>
      refine ⟨fun _ r hr => ?_, fun hp => by simp [Plan.panics, ha] at hp⟩
      split at hr
      · cases hr
      · rename_i x hx; exact iha.1 ha _ hx
    | false =>
      obtain ⟨s, h1, h2⟩ := iha.2 ha
      simp only [h1]
      have ihb := exec_flat recurse cur b h.2 { st with diags := st.diags ++ a.reports.map fun d => (cur, d) }
      refine ⟨fun hp r hr => ?_, fun hp => ?_⟩
      · split at hr
        · cases hr
        · rename_i x hx; exact ihb.1 (by simpa [Plan.panics, ha] using hp) _ hx
      · obtain ⟨t, h3, h4⟩ := ihb.2 (by simpa [Plan.panics, ha] using hp)
        simp only [h3, pure, Except.pure]
        exact ⟨CodeSet.union s t, by simp [Plan.reports], fun c => by simp [Plan.Yields, h2, h4]⟩
  | .minus a s, h, st => by
    simp only [Plan.targets] at h
    simp only [exec, bind, Except.bind]
    have iha := exec_flat recurse cur a h st
    refine ⟨fun hp r hr => ?_, fun hp => ?_⟩
    · split at hr
      · cases hr
      · rename_i x hx; exact iha.1 hp _ hx
    · obtain ⟨t, h1, h2⟩ := iha.2 hp
      simp only [h1, pure, Except.pure]
      exact ⟨CodeSet.diff t s, by simp [Plan.reports], fun c => by simp [Plan.Yields, h2]⟩

theorem unions_targets : ∀ {ps : List (Plan N D)}, (∀ p ∈ ps, p.targets = []) → (Plan.unions ps).targets = []
  | [], _ => rfl
  | p :: ps, h => by
    have := unions_targets (ps := ps) fun q hq => h q (List.mem_cons_of_mem _ hq)
    simp only [Plan.unions, Plan.targets, h p (by simp), this, List.append_nil]

theorem unions_panics (ps : List (Plan N D)) : (Plan.unions ps).panics = ps.any Plan.panics := by
  induction ps with
  | nil => rfl
  | cons p ps ih => simp only [Plan.unions, Plan.panics, ih, List.any_cons]

theorem unions_reports (ps : List (Plan N D)) : (Plan.unions ps).reports = ps.flatMap Plan.reports := by
  induction ps with
  | nil => rfl
  | cons p ps ih => simp only [Plan.unions, Plan.reports, ih, List.flatMap_cons]

theorem unions_yields' (ρ : N → GoString → Prop) (c : GoString) (ps : List (Plan N D)) :
    (Plan.unions ps).Yields ρ c ↔ ∃ p ∈ ps, p.Yields ρ c := by
  induction ps with
  | nil => simp [Plan.unions, Plan.Yields]
  | cons p ps ih => simp [Plan.unions, Plan.Yields, ih]

/-- Executing plans that are rearranged. -/
theorem exec_same {rec₁ rec₂ : N → Search N D → Except Stop (CodeSet × Search N D)} {cur : N}
    (hrec : ∀ g a b r, Same a b → rec₁ g a = .ok r → ∃ r', rec₂ g b = .ok r' ∧ SameResult r r')
    {p q : Plan N D} (hpq : p.Rearranged q) : ∀ {a b : Search N D} {r}, Same a b → exec rec₁ cur p a = .ok r →
      ∃ r', exec rec₂ cur q b = .ok r' ∧ SameResult r r' := by
  have union : ∀ {x x' y y' : Plan N D},
      (∀ {a b : Search N D} {r}, Same a b → exec rec₁ cur x a = .ok r → ∃ r', exec rec₂ cur x' b = .ok r' ∧ SameResult r r') →
      (∀ {a b : Search N D} {r}, Same a b → exec rec₁ cur y a = .ok r → ∃ r', exec rec₂ cur y' b = .ok r' ∧ SameResult r r') →
      ∀ {a b : Search N D} {r}, Same a b → exec rec₁ cur (.union x y) a = .ok r → ∃ r', exec rec₂ cur (.union x' y') b = .ok r' ∧ SameResult r r' := by
    intro x x' y y' hx hy a b r hab h
    simp only [exec, bind, Except.bind] at h ⊢
    split at h
    · cases h
    rename_i r1 h1
    obtain ⟨r1', k1, e1⟩ := hx hab h1
    split at h
    · cases h
    rename_i r2 h2
    obtain ⟨r2', k2, e2⟩ := hy e1.2 h2
    simp only [pure, Except.pure] at h
    cases h
    simp only [k1, k2, pure, Except.pure]
    exact ⟨_, rfl, fun c => by simp only [CodeSet.mem_union, e1.1 c, e2.1 c], e2.2⟩
  induction hpq with
  | refl p =>
    induction p with
    | codes s => intro a b r hab h; cases h; exact ⟨_, rfl, fun _ => Iff.rfl, hab⟩
    | report d =>
      intro a b r hab h; cases h
      exact ⟨_, rfl, fun _ => Iff.rfl, hab.scc, hab.found, hab.diags.append_right _, hab.comps⟩
    | panic loc => intro a b r _ h; cases h
    | call g =>
      intro a b r hab h
      simp only [exec, bind, Except.bind] at h ⊢
      rw [← hab.scc]
      split at h
      · cases h
      rename_i e he
      split at h
      · rename_i hs
        split at h
        · cases h
        rename_i r1 h1
        obtain ⟨r1', k1, e1⟩ := hrec g _ { b with scc := e.2 } r1 (hab.withScc _) h1
        split at h
        · cases h
        rename_i sc hsc
        cases h
        simp only [hs, if_true, k1, ← e1.2.scc, hsc, pure, Except.pure]
        exact ⟨_, rfl, e1.1, e1.2.withScc _⟩
      · rename_i hs
        cases h
        simp only [hs]
        exact ⟨_, rfl, hab.getD g, hab.withScc _⟩
    | visit g => intro a b r hab h; exact hrec g a b r hab h
    | union x y ihx ihy => exact union ihx ihy
    | minus x s ih =>
      intro a b r hab h
      simp only [exec, bind, Except.bind] at h ⊢
      split at h
      · cases h
      rename_i r1 h1
      obtain ⟨r1', k1, e1⟩ := ih hab h1
      cases h
      simp only [k1, pure, Except.pure]
      exact ⟨_, rfl, fun c => by simp only [CodeSet.mem_diff, e1.1 c], e1.2⟩
  | union _ _ iha ihb => exact union iha ihb
  | @perm ps qs hp ht =>
    intro a b r hab h
    have ht' : ∀ p ∈ qs, p.targets = [] := fun p hq => ht p (hp.mem_iff.2 hq)
    have f1 := exec_flat rec₁ cur _ (unions_targets ht) a
    have f2 := exec_flat rec₂ cur _ (unions_targets ht') b
    have hn : (Plan.unions ps).panics = false := by
      cases hh : (Plan.unions ps).panics with
      | false => rfl
      | true => exact absurd h (f1.1 hh r)
    obtain ⟨s, k1, y1⟩ := f1.2 hn
    rw [k1] at h; cases h
    obtain ⟨t, k2, y2⟩ := f2.2 (by rw [unions_panics] at hn ⊢; rw [← hp.any_eq]; exact hn)
    refine ⟨_, k2, fun c => ?_, hab.scc, hab.found, ?_, hab.comps⟩
    · rw [y1, y2, unions_yields', unions_yields']
      exact exists_congr fun p => and_congr_left fun _ => hp.mem_iff
    · exact hab.diags.append (by rw [unions_reports, unions_reports]; exact (hp.flatMap_right _).map _)

/-- Looking at a function, and at the functions it calls. -/
theorem findInFunc_same {p q : N → Plan N D} (hpq : ∀ f, (p f).Rearranged (q f)) : ∀ (fuel : Nat) (f : N) (a b : Search N D) (r), Same a b →
    findInFunc p fuel f a = .ok r → ∃ r', findInFunc q fuel f b = .ok r' ∧ SameResult r r'
  | 0, _, _, _, _, _, h => by cases h
  | fuel + 1, f, a, b, r, hab, h => by
    simp only [findInFunc, bind, Except.bind] at h ⊢
    rw [← hab.scc]
    split at h
    · cases h
    rename_i sc hsc
    split at h
    · cases h
    rename_i r1 h1
    obtain ⟨r1', k1, e1⟩ := exec_same (findInFunc_same hpq fuel) (hpq f) (hab.withScc sc) h1
    split at h
    · cases h
    rename_i e he
    have hset := e1.2.setFound f e1.1
    have he' := he
    rw [hset.scc] at he'
    simp only [k1, he']
    have hw := hset.withScc e.2
    cases hc : e.1 with
    | none =>
      simp only [hc, pure, Except.pure] at h ⊢
      cases h
      exact ⟨_, rfl, e1.1, hw⟩
    | some component =>
      simp only [hc, pure, Except.pure] at h ⊢
      cases h
      refine ⟨_, rfl, same_unify ?_ component⟩
      exact ⟨hw.scc, hw.found, hw.diags, by
        show (r1.2.setFound f r1.1).comps ++ [component] = (r1'.2.setFound f r1'.1).comps ++ [component]
        rw [hset.comps]⟩

theorem findCached_same {p q : N → Plan N D} (hpq : ∀ f, (p f).Rearranged (q f)) {fuel : Nat} {f : N} {a b : Search N D} {r} (hab : Same a b)
    (h : findCached p fuel f a = .ok r) : ∃ r', findCached q fuel f b = .ok r' ∧ SameResult r r' := by
  unfold findCached at h ⊢
  rcases hab.found f with ⟨h1, h2⟩ | ⟨s, t, h1, h2, h3⟩
  · rw [h1] at h; rw [h2]; exact findInFunc_same hpq fuel f a b r hab h
  · rw [h1] at h; cases h; rw [h2]; exact ⟨_, rfl, h3, hab⟩

/-- The same functions with the same codes. -/
inductive SameFound : List (N × CodeSet) → List (N × CodeSet) → Prop where
  | nil : SameFound [] []
  | cons {f : N} {s t : CodeSet} {l l'} : SameCodes s t → SameFound l l' → SameFound ((f, s) :: l) ((f, t) :: l')

theorem findAll_same {p q : N → Plan N D} (hpq : ∀ f, (p f).Rearranged (q f)) {fuel : Nat} : ∀ {fs : List N} {a b : Search N D} {r}, Same a b →
    findAll p fuel fs a = .ok r → ∃ r', findAll q fuel fs b = .ok r' ∧ SameFound r.1 r'.1 ∧ Same r.2 r'.2
  | [], _, _, _, hab, h => by cases h; exact ⟨_, rfl, .nil, hab⟩
  | f :: fs, a, b, r, hab, h => by
    simp only [findAll, bind, Except.bind] at h ⊢
    split at h
    · cases h
    rename_i r1 h1
    obtain ⟨r1', k1, e1⟩ := findCached_same hpq hab h1
    split at h
    · cases h
    rename_i r2 h2
    obtain ⟨r2', k2, e2, e3⟩ := findAll_same hpq e1.2 h2
    cases h
    simp only [k1, k2, pure, Except.pure]
    exact ⟨_, rfl, .cons e1.1 e2, e3⟩

end Search

namespace Conv
open Search

theorem checkMethods_same {D : Type} {env : Env} {o : Orders} (ho : o.Fair) {p q : FnId → Plan FnId D} (hpq : ∀ f, (p f).Rearranged (q f))
    {fuel : Nat} {c : Check} : ∀ {ms : List (GoString × CodeSet)} {a b : Search FnId D} {r}, Same a b → checkMethods env o p fuel c ms a = .ok r →
      ∃ r', checkMethods env o q fuel c ms b = .ok r' ∧ r.1 = r'.1 ∧ Same r.2 r'.2
  | [], _, _, _, hab, h => by cases h; exact ⟨_, rfl, rfl, hab⟩
  | (m, allowed) :: ms, a, b, r, hab, h => by
    simp only [checkMethods, bind, Except.bind] at h ⊢
    split at h
    · cases h
    rename_i r1 h1
    have : ∃ r1', methodCodes env q fuel c.source m b = .ok r1' ∧ SameResult r1 r1' := by
      unfold methodCodes at h1 ⊢
      split at h1
      · cases h1
      rename_i ob hob
      split at h1
      · cases h1; exact ⟨_, rfl, fun _ => Iff.rfl, hab⟩
      · split at h1
        · cases h1; exact ⟨_, rfl, fun _ => Iff.rfl, hab⟩
        · exact findCached_same hpq hab h1
    obtain ⟨r1', k1, e1⟩ := this
    split at h
    · cases h
    rename_i r2 h2
    obtain ⟨r2', k2, e2, e3⟩ := checkMethods_same ho hpq e1.2 h2
    cases h
    simp only [k1, k2, pure, Except.pure]
    refine ⟨_, rfl, ?_, e3⟩
    rw [e2, Props.Reports.interface_report_deterministic o.diff o.slice o.diff o.slice ho.diff ho.slice ho.diff ho.slice _ _ allowed allowed e1.1
      fun _ => Iff.rfl]

theorem runSteps_same {D : Type} {env : Env} {o : Orders} (ho : o.Fair) {p q : FnId → Plan FnId D} (hpq : ∀ f, (p f).Rearranged (q f))
    {fuel : Nat} : ∀ {ss : List Step} {a b : Search FnId D} {r}, Same a b → runSteps env o p fuel ss a = .ok r →
      ∃ r', runSteps env o q fuel ss b = .ok r' ∧ r.1 = r'.1 ∧ Same r.2 r'.2
  | [], _, _, _, hab, h => by cases h; exact ⟨_, rfl, rfl, hab⟩
  | .panic loc :: _, _, _, _, _, h => by cases h
  | .check c :: ss, a, b, r, hab, h => by
    simp only [runSteps, bind, Except.bind] at h ⊢
    split at h
    · cases h
    rename_i r1 h1
    have : ∃ r1', runCheck env o q fuel c b = .ok r1' ∧ r1.1 = r1'.1 ∧ Same r1.2 r1'.2 := by
      unfold runCheck at h1 ⊢
      split at h1
      · rename_i he; rw [if_pos he]; cases h1; exact ⟨_, rfl, rfl, hab⟩
      rename_i he
      rw [if_neg he]
      split at h1
      · cases h1; exact ⟨_, rfl, rfl, hab⟩
      · exact checkMethods_same ho hpq hab h1
    obtain ⟨r1', k1, e1, e1'⟩ := this
    split at h
    · cases h
    rename_i r2 h2
    obtain ⟨r2', k2, e2, e3⟩ := runSteps_same ho hpq e1' h2
    cases h
    simp only [k1, k2, pure, Except.pure]
    exact ⟨_, rfl, by rw [e1, e2], e3⟩

end Conv

/-! ## Bodies and runs -/

namespace Analyse
variable (env : Env) (o : FnId → List ObjId → List ObjId) (h : ∀ f v, (o f v).Perm v)

section
set_option smartUnfolding false

private theorem r_ctor : extractErrorCodesFromConstructor (env.reordered o h) = extractErrorCodesFromConstructor env := rfl
private theorem r_taint : Taint.run (env.reordered o h) = Taint.run env := rfl
private theorem r_aff : extractErrorCodesFromAffector (env.reordered o h) = extractErrorCodesFromAffector env := rfl
private theorem r_conv : extractErrorCodesFromTypeConversion (env.reordered o h) = extractErrorCodesFromTypeConversion env := rfl
private theorem r_cc : extractErrorCodeFromConstructorCall (env.reordered o h) = extractErrorCodeFromConstructorCall env := rfl
private theorem r_fields : fieldAssignments (env.reordered o h) = fieldAssignments env := rfl
private theorem r_lam : lambdaAssignment (env.reordered o h) = lambdaAssignment env := rfl
private theorem r_lams : lambdaAssignments (env.reordered o h) = lambdaAssignments env := rfl
private theorem r_called : calledFunction (env.reordered o h) = calledFunction env := rfl
private theorem r_all : allAssignedLambdas (env.reordered o h) = allAssignedLambdas env := rfl
private theorem r_fc : functionCall (env.reordered o h) = functionCall env := rfl
private theorem r_call : call (env.reordered o h) = call env := rfl
private theorem r_ce : callExpression (env.reordered o h) = callExpression env := rfl
private theorem r_expr : expression (env.reordered o h) = expression env := rfl
private theorem r_destructs : destructs (env.reordered o h) = destructs env := rfl
private theorem r_ident : identTaint (env.reordered o h) = identTaint env := rfl
private theorem r_ret : returnStmt (env.reordered o h) = returnStmt env := rfl
private theorem r_ann : annotatedReturn (env.reordered o h) = annotatedReturn env := rfl
private theorem r_rets : returnStmts (env.reordered o h) = returnStmts env := rfl
end

theorem fieldAssignment_targets {env : Env} {f : FnId} {x : ObjId} {n : Nat} {rhs : List Node} : ∀ {ls : List Node} {t : Option ErrorType} {i : Nat},
    (fieldAssignment env f x n rhs t i ls).targets = []
  | [], _, _ => rfl
  | l :: ls, t, i => by
    have fc : ∀ y : Found, (foundCode y).targets = [] := by
      intro y
      unfold foundCode reports
      simp only [Plan.targets, List.append_nil]
      refine Search.unions_targets fun p hp => ?_
      obtain ⟨d, _, rfl⟩ := List.mem_map.1 hp
      rfl
    unfold fieldAssignment
    split
    · exact fieldAssignment_targets
    split
    · exact fieldAssignment_targets
    split
    · exact fieldAssignment_targets
    split
    · split
      · exact fieldAssignment_targets
      · rfl
    split
    · exact fieldAssignment_targets
    split
    · split
      · rfl
      · simp only [Plan.targets, List.nil_append]; exact fieldAssignment_targets
    · split
      · rfl
      · simp only [Plan.targets, fc, List.nil_append]; exact fieldAssignment_targets

theorem fieldAssignments_targets {env : Env} {f : FnId} {x : ObjId} : ∀ {ns : List Node}, (fieldAssignments env f x ns).targets = []
  | [] => rfl
  | n :: ns => by
    unfold fieldAssignments
    split
    · rename_i h; cases h
    · rename_i h; cases h; simp only [Plan.targets, fieldAssignment_targets, List.nil_append]; exact fieldAssignments_targets
    · rename_i h; cases h; exact fieldAssignments_targets

theorem assignedFields_rearranged (f : FnId) (body : List Node) (v : List ObjId) :
    (assignedFields env f body v).Rearranged (assignedFields (env.reordered o h) f body v) := by
  unfold assignedFields
  rw [r_fields]
  refine .perm (List.Perm.map _ ((env.fieldOrder_perm f v).trans (h f v).symm)) fun p hp => ?_
  obtain ⟨x, _, rfl⟩ := List.mem_map.1 hp
  exact fieldAssignments_targets

/-- In another order of the map, the plan is rearranged. -/
theorem plan_rearranged (fuel : Nat) (f : FnId) : (plan env fuel f).Rearranged (plan (env.reordered o h) fuel f) := by
  unfold plan bodyPlan
  rw [r_ctor, r_rets]
  have e : (env.reordered o h).func f = env.func f := rfl
  rw [e]
  cases hb : (env.func f).body with
  | none => exact .refl _
  | some body =>
    simp only
    cases hc : extractErrorCodesFromConstructor env f body fuel with
    | error e => cases e <;> exact .refl _
    | ok pc =>
      simp only [lift, bind, Except.bind]
      cases hr : returnStmts env f body fuel [] (Node.inspectList intoReturns body) with
      | error e => exact .refl _
      | ok r => exact .union (.refl _) (.union (.refl _) (assignedFields_rearranged env o h f body r.2))

end Analyse

theorem Plan.Rearranged.targets {N D : Type} {p q : Plan N D} [DecidableEq N] (h : p.Rearranged q) : q.targets = p.targets := by
  induction h with
  | refl => rfl
  | union _ _ iha ihb => simp only [Plan.targets, iha, ihb]
  | perm hp ht => rw [Search.unions_targets ht, Search.unions_targets fun p hq => ht p (hp.mem_iff.2 hq)]

namespace Package
variable (P : Package) (o : FnId → List ObjId → List ObjId) (h : ∀ f v, (o f v).Perm v)

theorem at_reordered (facts : Facts) : (P.reordered o h).at_ facts = (P.at_ facts).reordered o h := rfl

theorem plan_rearranged (facts : Facts) (f : FnId) : (P.plan facts f).Rearranged ((P.reordered o h).plan facts f) :=
  Analyse.plan_rearranged (P.at_ facts) o h P.depth f

theorem functions_reordered (facts : Facts) : (P.reordered o h).functions facts = P.functions facts := by
  unfold functions
  have : ∀ f, ((P.reordered o h).plan facts f).targets = (P.plan facts f).targets := fun f => (P.plan_rearranged o h facts f).targets
  simp only [this]
  rfl

end Package

section
variable (env : Env) (o : FnId → List ObjId → List ObjId) (h : ∀ f v, (o f v).Perm v)
set_option smartUnfolding false
theorem tag_reordered : findAndTagErrorTypes (env.reordered o h) = findAndTagErrorTypes env := rfl
theorem find_reordered : Interfaces.find (env.reordered o h) = Interfaces.find env := rfl
theorem returning_reordered : findErrorReturningFunctions (env.reordered o h) = findErrorReturningFunctions env := rfl
theorem claimed_reordered : findClaimedErrorCodes (env.reordered o h) = findClaimedErrorCodes env := rfl
theorem ctorFacts_reordered : exportErrorConstructorFacts (env.reordered o h) = exportErrorConstructorFacts env := rfl
theorem codeFacts_reordered : exportErrorCodeFacts (env.reordered o h) = exportErrorCodeFacts env := rfl
theorem steps_reordered : Conv.steps (env.reordered o h) = Conv.steps env := rfl
theorem runSteps_reordered {D : Type} : Conv.runSteps (D := D) (env.reordered o h) = Conv.runSteps env := rfl
end

theorem mismatches_same {o : FnId → MatchOrders} (ho : ∀ f, Props.Reports.AllOrders (o f)) : ∀ {claims : List (FnId × FuncCodes)}
    {l l' : List (FnId × CodeSet)}, Search.SameFound l l' → mismatches o claims l = mismatches o claims l'
  | [], _, _, _ => by simp [mismatches]
  | c :: cs, _, _, .nil => by simp [mismatches]
  | c :: cs, _, _, .cons (s := s) (t := t) hs h => by
    have ih := mismatches_same ho (claims := cs) h
    unfold mismatches at ih ⊢
    simp only [List.zip_cons_cons, List.filterMap_cons]
    have : reportIfCodesDoNotMatch (o c.1) s c.2.codes = reportIfCodesDoNotMatch (o c.1) t c.2.codes := by
      unfold reportIfCodesDoNotMatch
      rw [Props.Reports.mismatch_deterministic (o c.1) (o c.1) (ho _) (ho _) s t c.2.codes c.2.codes hs fun _ => Iff.rfl]
    rw [this, ih]

end Serum
