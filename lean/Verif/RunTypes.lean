import Verif.RunFacts
import Verif.Props.ErrorTypes

/-! # What a run records for types and interfaces -/

namespace Serum
open RunSpec

/-! ## Error types -/

/-- What the tagging of all types leaves behind: each type is tagged for itself. -/
theorem tag_types {env : Env} {d : Decls} {td : TypeDecls} {fuel : Nat} : ∀ {specs : List TypeSpec} {facts facts' : Facts} {ds : List TagDiag},
    findAndTagErrorTypes env d td fuel specs facts = .ok (facts', ds) → (specs.map TypeSpec.typ).Nodup →
    (∀ spec ∈ specs, ∃ o, spec.typ = .named o) →
    (∀ o, (∀ spec ∈ specs, spec.typ ≠ .named o) → facts'.errorType o = facts.errorType o) ∧
    (∀ spec ∈ specs, ∀ o, spec.typ = .named o →
      (typeToTag env spec.typ = none ∧ facts'.errorType o = facts.errorType o) ∨
      ∃ err fact es, typeToTag env spec.typ = some err ∧ tagErrorType env d td fuel spec err = .ok (fact, es) ∧
        ((fact = none ∧ facts'.errorType o = facts.errorType o) ∨ ∃ et, fact = some (o, et) ∧ facts'.errorType o = some et)) ∧
    (∀ x, x ∈ ds ↔ ∃ spec ∈ specs, ∃ err fact es, typeToTag env spec.typ = some err ∧
      tagErrorType env d td fuel spec err = .ok (fact, es) ∧ x ∈ es)
  | [], facts, facts', ds, h, _, _ => by cases h; simp
  | spec :: specs, facts, facts', ds, h, hn, hnamed => by
    rw [List.map_cons, List.nodup_cons] at hn
    obtain ⟨o, ho⟩ := hnamed spec (by simp)
    have hother : ∀ s ∈ specs, s.typ ≠ .named o := fun s hs he => hn.1 (List.mem_map.2 ⟨s, hs, he.trans ho.symm⟩)
    unfold findAndTagErrorTypes at h
    cases ht : typeToTag env spec.typ with
    | none =>
      simp only [ht] at h
      obtain ⟨h1, h2, h3⟩ := tag_types h hn.2 fun s hs => hnamed s (by simp [hs])
      refine ⟨fun o' ho' => h1 o' fun s hs => ho' s (by simp [hs]), fun s hs o' ho' => ?_, fun x => ?_⟩
      · rcases List.mem_cons.1 hs with rfl | hs
        · rw [ho] at ho'; cases ho'
          exact .inl ⟨ht, h1 o hother⟩
        · exact h2 s hs o' ho'
      · rw [h3]
        constructor
        · rintro ⟨s, hs, g⟩; exact ⟨s, by simp [hs], g⟩
        · rintro ⟨s, hs, err, fact, es, g1, g⟩
          rcases List.mem_cons.1 hs with rfl | hs
          · rw [ht] at g1; cases g1
          · exact ⟨s, hs, err, fact, es, g1, g⟩
    | some err =>
      simp only [ht, bind, Except.bind] at h
      cases htag : tagErrorType env d td fuel spec err with
      | error e => simp [htag] at h
      | ok r =>
        obtain ⟨fact, es⟩ := r
        simp only [htag] at h
        split at h
        · cases h
        rename_i r2 h2
        obtain ⟨facts2, ds2⟩ := r2
        cases h
        obtain ⟨g1, g2, g3⟩ := tag_types h2 hn.2 fun s hs => hnamed s (by simp [hs])
        have hnt : getNamedType err = some o := by
          unfold typeToTag at ht
          rw [ho] at ht
          split at ht
          · cases ht; rfl
          · split at ht
            · cases ht; rfl
            · cases ht
        have hfact : ∀ o' et, fact = some (o', et) → o' = o := by
          rintro o' et rfl
          obtain ⟨t⟩ := Props.ErrorTypes.tagged htag
          have := t.named; rw [hnt] at this; cases this; rfl
        refine ⟨fun o' ho' => ?_, fun s hs o' ho' => ?_, fun x => ?_⟩
        · rw [g1 o' fun s hs => ho' s (by simp [hs])]
          cases fact with
          | none => rfl
          | some p =>
            obtain ⟨o2, et⟩ := p
            have := hfact o2 et rfl
            subst this
            have : o' ≠ o2 := fun he => ho' spec (by simp) (he ▸ ho)
            simp [this]
        · rcases List.mem_cons.1 hs with rfl | hs
          · rw [ho] at ho'; cases ho'
            refine .inr ⟨err, fact, es, ht, htag, ?_⟩
            cases fact with
            | none => exact .inl ⟨rfl, g1 o hother⟩
            | some p =>
              obtain ⟨o2, et⟩ := p
              have := hfact o2 et rfl
              subst this
              refine .inr ⟨et, rfl, ?_⟩
              rw [g1 o2 hother]; simp
          · have hne : o' ≠ o := fun he => hother s hs (he ▸ ho')
            have hb : ∀ o2 et, fact = some (o2, et) → o' ≠ o2 := fun o2 et hf => by rw [hfact o2 et hf]; exact hne
            have hf : (match fact with
              | none => facts
              | some (o, et) => { facts with errorType := fun p => if p = o then some et else facts.errorType p }).errorType o' = facts.errorType o' := by
              cases fact with
              | none => rfl
              | some p => obtain ⟨o2, et⟩ := p; simp [hb o2 et rfl]
            rcases g2 s hs o' ho' with ⟨k1, k2⟩ | ⟨err', fact', es', k1, k2, k3⟩
            · exact .inl ⟨k1, k2.trans hf⟩
            · refine .inr ⟨err', fact', es', k1, k2, ?_⟩
              rcases k3 with ⟨rfl, k3⟩ | k3
              · exact .inl ⟨rfl, k3.trans hf⟩
              · exact .inr k3
        · rw [List.mem_append, g3]
          constructor
          · rintro (hx | ⟨s, hs, g⟩)
            · exact ⟨spec, by simp, err, fact, es, ht, htag, hx⟩
            · exact ⟨s, by simp [hs], g⟩
          · rintro ⟨s, hs, err', fact', es', k1, k2, hx⟩
            rcases List.mem_cons.1 hs with rfl | hs
            · rw [ht] at k1; cases k1; rw [htag] at k2; cases k2; exact .inl hx
            · exact .inr ⟨s, hs, err', fact', es', k1, k2, hx⟩

theorem typeToTag_iff {env : Env} {t err : GoType} :
    typeToTag env t = some err ↔ (env.implCode t = true ∧ err = t) ∨ (env.implCode t = false ∧ env.implCode (.pointer t) = true ∧ err = .pointer t) := by
  unfold typeToTag
  cases h : env.implCode t <;> cases h' : env.implCode (.pointer t) <;> simp [eq_comm]

/-! ## Interfaces -/

section
variable {env env' : Env} (h1 : env.implError = env'.implError) (h2 : env.typeOf = env'.typeOf)
  (h3 : SameImports env env') {decls : List IfaceDecl}
include h1 h2 in
theorem own_congr {d : IfaceDecl} {m : GoString} {S : CodeSet} (h : IfaceSpec.Own env d m S) : IfaceSpec.Own env' d m S := by
  obtain ⟨im, r, results, last, g1, g2, g3, g4, g5, g6⟩ := h
  exact ⟨im, r, results, last, g1, g2, g3, g4, by rw [← h1, ← h2]; exact g5, g6⟩

include h1 h2 h3 in
theorem contributes_congr {e : Embedded} {m : GoString} {S : CodeSet} (h : IfaceSpec.Contributes env decls e m S) :
    IfaceSpec.Contributes env' decls e m S := by
  cases e with
  | name id n => obtain ⟨d, hd, hn, h⟩ := h; exact ⟨d, hd, hn, has_congr h1 h2 h3 h⟩
  | qualified id => exact (h3 _ _ _).1 h

include h1 h2 h3 in
theorem takesFrom_congr {d : IfaceDecl} {es : List Embedded} {m : GoString} {S : CodeSet} (h : IfaceSpec.TakesFrom env decls d es m S) :
    IfaceSpec.TakesFrom env' decls d es m S := by
  induction h with
  | own h => exact .own (own_congr h1 h2 h)
  | embeds g1 g2 g3 g4 _ ih =>
    exact .embeds (fun T hT => g1 T (own_congr h1.symm h2.symm hT)) g2
      (fun e he T hT => g3 e he T (contributes_congr h1.symm h2.symm h3.symm hT)) g4 ih
  | imports g1 g2 g3 g4 g5 =>
    obtain ⟨ms', k1, k2⟩ := (h3 _ _ _).1 ⟨_, g4, g5⟩
    exact .imports (fun T hT => g1 T (own_congr h1.symm h2.symm hT)) g2
      (fun e he T hT => g3 e he T (contributes_congr h1.symm h2.symm h3.symm hT)) k1 k2

include h1 h2 h3 in
theorem clashOf_congr {d : IfaceDecl} {pre : List Embedded} {e : Embedded} {x : IfaceDiag} (h : IfaceSpec.ClashOf env decls d pre e x) :
    IfaceSpec.ClashOf env' decls d pre e x := by
  obtain ⟨m, S, T, missing, unused, k1, k2, k3⟩ := h
  refine ⟨m, S, T, missing, unused, takesFrom_congr h1 h2 h3 k1, ?_, k3⟩
  cases e with
  | name id n => obtain ⟨d, hd, hn, h⟩ := k2; exact ⟨d, hd, hn, takesFrom_congr h1 h2 h3 h⟩
  | qualified id => exact (h3 _ _ _).1 k2

include h1 h2 h3 in
theorem clashes_congr {d : IfaceDecl} {x : IfaceDiag} : IfaceSpec.clashes env decls d x = IfaceSpec.clashes env' decls d x := by
  have : ∀ (es pre : List Embedded), IfaceSpec.clashesFrom env decls d pre es x = IfaceSpec.clashesFrom env' decls d pre es x := by
    intro es
    induction es with
    | nil => intro pre; rfl
    | cons e es ih =>
      intro pre
      have hc : IfaceSpec.ClashOf env decls d pre e x ↔ IfaceSpec.ClashOf env' decls d pre e x :=
        ⟨clashOf_congr h1 h2 h3, clashOf_congr h1.symm h2.symm h3.symm⟩
      simp only [IfaceSpec.clashesFrom, ih]
      by_cases hx : IfaceSpec.ClashOf env decls d pre e x
      · rw [if_pos hx, if_pos (hc.1 hx)]
      · rw [if_neg hx, if_neg fun h => hx (hc.2 h)]
  exact this _ _

include h1 h2 h3 in
theorem clashIn_congr {d : IfaceDecl} {x : IfaceDiag} (h : IfaceSpec.ClashIn env decls d x) : IfaceSpec.ClashIn env' decls d x := by
  obtain ⟨pre, e, post, he, m, S, T, missing, unused, k1, k2, k3⟩ := h
  refine ⟨pre, e, post, he, m, S, T, missing, unused, takesFrom_congr h1 h2 h3 k1, ?_, k3⟩
  cases e with
  | name id n => obtain ⟨d, hd, hn, h⟩ := k2; exact ⟨d, hd, hn, takesFrom_congr h1 h2 h3 h⟩
  | qualified id => exact (h3 _ _ _).1 k2

end

namespace Prepared
variable {P : Package} {S : Schedule} {strict : Bool} {s : Stages} {out : Outcome}

theorem takes_iff (h : Prepared P S strict s out) {d : IfaceDecl} {m : GoString} {C : CodeSet} :
    IfaceSpec.Takes (P.at_ s.tagged) P.ifaces d m C ↔ IfaceSpec.Takes P.env P.ifaces d m C :=
  ⟨takesFrom_congr (env := P.at_ s.tagged) (env' := P.env) rfl rfl (sameImports rfl h.tagged_rest.2.2),
    takesFrom_congr (env := P.env) (env' := P.at_ s.tagged) rfl rfl (sameImports rfl h.tagged_rest.2.2.symm)⟩

theorem clash_iff (h : Prepared P S strict s out) {d : IfaceDecl} {x : IfaceDiag} :
    IfaceSpec.ClashIn (P.at_ s.tagged) P.ifaces d x ↔ IfaceSpec.ClashIn P.env P.ifaces d x :=
  ⟨clashIn_congr (env := P.at_ s.tagged) (env' := P.env) rfl rfl (sameImports rfl h.tagged_rest.2.2),
    clashIn_congr (env := P.env) (env' := P.at_ s.tagged) rfl rfl (sameImports rfl h.tagged_rest.2.2.symm)⟩

end Prepared
end Serum
