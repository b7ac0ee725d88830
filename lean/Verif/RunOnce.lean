import Verif.RunPlan

/-! # Bodies are looked at once, over both phases of a run -/

namespace Serum
open RunSpec ConvSpec

namespace Search
variable {N D : Type} [DecidableEq N] {plan plan' : N → Plan N D}

theorem Looked.roots_congr {rs rs' : List N} {extra : N → List D} {st st' : Search N D} (h : Looked plan rs extra st st')
    (hm : ∀ x, x ∈ rs ↔ x ∈ rs') : Looked plan rs' extra st st' where
  grow := h.grow
  tidy := h.tidy
  roots x hx := h.roots x ((hm x).2 hx)
  new x hx hn := by
    obtain ⟨⟨g, hg, hr⟩, h2⟩ := h.new x hx hn
    exact ⟨⟨g, (hm g).1 hg, hr⟩, h2⟩
  diags_old := h.diags_old
  diags_new := h.diags_new
  diags_not := h.diags_not

/-- Only what is done in visited functions matters. -/
theorem Looked.plan_congr {rs : List N} {st : Search N D} (h : Looked plan rs (fun _ => []) Search.start st)
    (he : ∀ x, st.scc.Vis x → plan x = plan' x) : Looked plan' rs (fun _ => []) Search.start st where
  grow := h.grow
  tidy := h.tidy
  roots := h.roots
  new x hx hn := by
    have hcl : ∀ a, st.scc.Vis a → ∀ b ∈ (plan a).targets, st.scc.Vis b := fun a ha b hb =>
      (h.new a ha (by simp [Search.start, Scc.start, Scc.Vis])).2 b hb
    obtain ⟨⟨g, hg, hr⟩, h2⟩ := h.new x hx hn
    refine ⟨⟨g, hg, ?_⟩, by rw [← he x hx]; exact h2⟩
    have hv := h.roots g hg
    clear hg h2 hx hn
    induction hr with
    | refl => exact .refl _
    | step hc _ ih =>
      refine .step ?_ (ih (hcl _ hv _ hc))
      unfold Calls at hc ⊢
      rw [← he _ hv]; exact hc
  diags_old x hx := absurd hx (by simp [Search.start, Scc.start, Scc.Vis])
  diags_new x hn hx := by rw [← he x hx]; exact h.diags_new x hn hx
  diags_not := h.diags_not

end Search

namespace Conv
variable {D : Type} {env : Env} {o : Orders} {plan : FnId → Plan FnId D} {fuel : Nat}

/-- The method declarations looked at for a method of an interface. -/
def askedFor (env : Env) (source : GoType) (m : GoString × CodeSet) : List FnId :=
  match env.searchMethodType source m.1 with
  | none => []
  | some ob => match env.facts.codes ob with
    | some _ => []
    | none => (env.searchMethod source m.1).toList

/-- The method declarations looked at for a check. -/
def askedIn (env : Env) (o : Orders) (c : Check) : List FnId :=
  if c.source = c.target ∨ c.source = .untypedNil then [] else (o.methods c.methods).flatMap (askedFor env c.source)

/-- The method declarations looked at in a sequence of steps. -/
def askedAll (env : Env) (o : Orders) : List Step → List FnId
  | [] => []
  | .panic _ :: _ => []
  | .check c :: ss => askedIn env o c ++ askedAll env o ss

theorem methodCodes_looked {source : GoType} {m : GoString × CodeSet} {st : Search FnId D} {r} (ht : Search.Tidy st)
    (h : methodCodes env plan fuel source m.1 st = .ok r) :
    Search.Looked plan (askedFor env source m) (fun _ => []) st r.2 := by
  unfold methodCodes at h
  unfold askedFor
  cases h1 : env.searchMethodType source m.1 with
  | none => rw [h1] at h; cases h
  | some ob =>
    rw [h1] at h
    simp only at h ⊢
    cases h2 : env.facts.codes ob with
    | some codes => rw [h2] at h; cases h; exact .nil st ht
    | none =>
      rw [h2] at h
      simp only at h ⊢
      cases h3 : env.searchMethod source m.1 with
      | none => rw [h3] at h; cases h; exact .nil st ht
      | some f => rw [h3] at h; exact Search.findCached_looked' fuel f st r ht h

theorem checkMethods_looked {c : Check} : ∀ {ms : List (GoString × CodeSet)} {st : Search FnId D} {r}, Search.Tidy st →
    checkMethods env o plan fuel c ms st = .ok r → Search.Looked plan (ms.flatMap (askedFor env c.source)) (fun _ => []) st r.2
  | [], st, r, ht, h => by cases h; exact .nil st ht
  | (m, allowed) :: ms, st, r, ht, h => by
    unfold checkMethods at h
    simp only [bind, Except.bind] at h
    split at h
    · cases h
    rename_i r1 h1
    obtain ⟨found, st1⟩ := r1
    simp only at h
    split at h
    · cases h
    rename_i r2 h2
    cases h
    have l1 := methodCodes_looked (m := (m, allowed)) ht h1
    rw [List.flatMap_cons]
    have l2 := checkMethods_looked l1.tidy h2
    exact l1.trans' l2

theorem runCheck_looked {c : Check} {st : Search FnId D} {r} (ht : Search.Tidy st)
    (h : runCheck env o plan fuel c st = .ok r) : Search.Looked plan (askedIn env o c) (fun _ => []) st r.2 := by
  unfold runCheck at h
  unfold askedIn
  split at h
  · rename_i he
    cases h
    rw [if_pos (.inl he)]; exact .nil st ht
  · rename_i he
    split at h
    · rename_i hn
      cases h
      rw [if_pos (.inr hn)]; exact .nil st ht
    · rename_i hn
      rw [if_neg (by rintro (h' | h'); exact he h'; exact hn h')]
      exact checkMethods_looked ht h

theorem runSteps_looked : ∀ {ss : List Step} {st : Search FnId D} {r}, Search.Tidy st →
    runSteps env o plan fuel ss st = .ok r → Search.Looked plan (askedAll env o ss) (fun _ => []) st r.2
  | [], st, r, ht, h => by cases h; exact .nil st ht
  | .panic l :: ss, st, r, ht, h => by cases h
  | .check c :: ss, st, r, ht, h => by
    unfold runSteps at h
    simp only [bind, Except.bind] at h
    split at h
    · cases h
    rename_i r1 h1
    obtain ⟨rs, st1⟩ := r1
    simp only at h
    split at h
    · cases h
    rename_i r2 h2
    cases h
    have l1 := runCheck_looked ht h1
    have l2 := runSteps_looked l1.tidy h2
    exact l1.trans' l2

theorem no_panic_steps {ss : List Step} {st : Search FnId D} {r} (h : runSteps env o plan fuel ss st = .ok r) :
    ∀ loc, .panic loc ∉ ss := by
  induction ss generalizing st r with
  | nil => simp
  | cons s ss ih =>
    cases s with
    | panic l => cases h
    | check c =>
      unfold runSteps at h
      simp only [bind, Except.bind] at h
      split at h
      · cases h
      split at h
      · cases h
      rename_i h2
      intro loc hm
      rcases List.mem_cons.1 hm with hm | hm
      · cases hm
      · exact ih h2 loc hm

theorem mem_askedAll (ho : o.Fair) (hone : DeclaredOnce env) {ss : List Step} (hp : ∀ loc, .panic loc ∉ ss) {f : FnId} :
    f ∈ askedAll env o ss ↔ Asked env ss f := by
  have one : ∀ c : Check, f ∈ askedIn env o c ↔ c.source ≠ c.target ∧ c.source ≠ .untypedNil ∧ ∃ m allowed ob,
      (m, allowed) ∈ c.methods ∧ MethodOf env c.source m ob ∧ env.facts.codes ob = none ∧ Declares env f m ob := by
    intro c
    unfold askedIn
    split
    · rename_i h
      simp only [List.not_mem_nil, false_iff, not_and]
      rcases h with h | h
      · exact fun h' => absurd h h'
      · exact fun _ h' => absurd h h'
    · rename_i h
      simp only [not_or] at h
      refine ⟨fun hm => ⟨h.1, h.2, ?_⟩, fun ⟨_, _, m, allowed, ob, hm, h1, h2, h3⟩ => ?_⟩
      · obtain ⟨⟨m, allowed⟩, hm, hf⟩ := List.mem_flatMap.1 hm
        unfold askedFor at hf
        cases h1 : env.searchMethodType c.source m with
        | none => simp [h1] at hf
        | some ob =>
          cases h2 : env.facts.codes ob with
          | some _ => simp [h1, h2] at hf
          | none =>
            cases h3 : env.searchMethod c.source m with
            | none => simp [h1, h2, h3] at hf
            | some g =>
              simp [h1, h2, h3] at hf
              subst hf
              exact ⟨m, allowed, ob, (ho.methods _).mem_iff.1 hm, searchMethodType_iff.1 h1, h2, searchMethod_some h1 h3⟩
      · refine List.mem_flatMap.2 ⟨(m, allowed), (ho.methods _).mem_iff.2 hm, ?_⟩
        have h1 := searchMethodType_iff.2 h1
        unfold askedFor
        simp only [h1, h2]
        cases h4 : env.searchMethod c.source m with
        | none => exact (searchMethod_none h1 h4 f h3).elim
        | some g =>
          have := searchMethod_some h1 h4
          simp [hone m f g h3.1 this.1 (h3.2.trans this.2.symm)]
  induction ss with
  | nil => simp [askedAll, Asked]
  | cons s ss ih =>
    cases s with
    | panic l => exact absurd (List.mem_cons_self) (hp l)
    | check c =>
      have ih := ih fun loc h => hp loc (List.mem_cons_of_mem _ h)
      simp only [askedAll, List.mem_append, one, ih, Asked]
      constructor
      · rintro (⟨h1, h2, h3⟩ | ⟨c', hc, h⟩)
        · exact ⟨c, by simp, h1, h2, h3⟩
        · exact ⟨c', by simp [hc], h⟩
      · rintro ⟨c', hc, h⟩
        simp only [List.mem_cons, Step.check.injEq] at hc
        rcases hc with rfl | hc
        · exact .inl h
        · exact .inr ⟨c', hc, h⟩

end Conv
end Serum
