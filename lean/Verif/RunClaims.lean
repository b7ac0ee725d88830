import Verif.RunFuel
import Verif.Spec.RunSpec
import Verif.Props.Claims

/-! # The functions of a run and their declarations -/

namespace Serum
open RunSpec

theorem kept_iff {P : Package} (hn : P.funcs.Nodup) {f : FnId} : f ∈ P.collected ↔ Kept P f := by
  unfold Package.collected Kept
  rw [List.mem_filter, Bool.or_eq_true, beq_iff_eq, collectFunctions_functions]
  constructor
  · rintro ⟨hf, h⟩
    obtain ⟨pre, post, he⟩ := List.append_of_mem hf
    refine ⟨pre, post, he, ?_⟩
    rcases h with h | h
    · exact .inl (by intro e; rw [e] at h; cases h)
    · refine .inr fun g hg hr he' => ?_
      rw [he, List.filter_append, List.filter_cons] at h
      have hmem : g ∈ post.filter fun f' => (P.decls.recv f').isNone && (P.decls.name f' == P.decls.name f) := by
        simp [hg, hr, he']
      have hfp : f ∉ post := by
        rw [he] at hn
        exact (List.nodup_cons.1 (List.nodup_append.1 hn).2.1).1
      have hlast : ∀ l : List FnId, l ≠ [] → ∀ l', (l' ++ l).getLast? = l.getLast? := by
        intro l hl l'; rw [List.getLast?_append]; cases hx : l.getLast? with
        | none => exact absurd (List.getLast?_eq_none_iff.1 hx) hl
        | some y => rfl
      have hne := List.ne_nil_of_mem hmem
      have : (post.filter fun f' => (P.decls.recv f').isNone && (P.decls.name f' == P.decls.name f)).getLast? = some f := by
        rw [← h]
        split
        · rw [hlast _ (by simp), ← List.singleton_append, hlast _ hne]
        · rw [hlast _ hne]
      exact hfp (List.mem_filter.1 (List.mem_of_getLast? this)).1
  · rintro ⟨pre, post, he, h⟩
    refine ⟨by rw [he]; simp, ?_⟩
    by_cases hr : P.decls.recv f = none
    · refine .inr ?_
      have h := h.resolve_left (fun h' => h' hr)
      have hpost : (post.filter fun f' => (P.decls.recv f').isNone && (P.decls.name f' == P.decls.name f)) = [] := by
        rw [List.filter_eq_nil_iff]
        intro g hg
        simp only [Bool.and_eq_true, Option.isNone_iff_eq_none, beq_iff_eq, not_and]
        exact fun hr => h g hg hr
      rw [he, List.filter_append, List.filter_cons]
      simp [hr, hpost]
    · exact .inl (by simpa [Option.isSome_iff_ne_none] using hr)

theorem returning_sublist {env : Env} : ∀ {fs analysed : List FnId} {ds : List ClaimDiag},
    findErrorReturningFunctions env fs = .ok (analysed, ds) → analysed.Sublist fs
  | [], analysed, ds, h => by cases h; exact .slnil
  | f :: fs, analysed, ds, h => by
    unfold findErrorReturningFunctions at h
    simp only [bind, Except.bind, pure, Except.pure] at h
    split at h
    · cases h
    · split at h
      · cases h
      · rename_i r hr
        cases h
        have := returning_sublist (analysed := r.1) (ds := r.2) hr
        split
        · exact this.cons_cons f
        · exact this.cons f

theorem claims_sublist {env : Env} {d : Decls} {strict : Bool} : ∀ fs : List FnId,
    ((findClaimedErrorCodes env d strict fs).1.map Prod.fst).Sublist fs
  | [] => .slnil
  | f :: fs => by
    unfold findClaimedErrorCodes
    dsimp only
    split
    · exact (claims_sublist fs).cons_cons f
    · exact (claims_sublist fs).cons f

namespace Prepared
variable {P : Package} {S : Schedule} {strict : Bool} {s : Stages} {out : Outcome}

theorem funcs_iff (h : Prepared P S strict s out) (hS : S.Fair) (hn : P.funcs.Nodup) {f : FnId} :
    f ∈ s.funcs ↔ Kept P f ∧ ReturnsError P f := by
  rw [Props.Claims.analysed_exact _ _ _ _ h.funcs, (hS.functions _).mem_iff, kept_iff hn]
  exact Iff.rfl

theorem funcs_nodup (h : Prepared P S strict s out) (hS : S.Fair) (hn : P.funcs.Nodup) : s.funcs.Nodup :=
  (returning_sublist h.funcs).nodup (((hS.functions _).nodup_iff).2 (P.collected_nodup hn))

theorem claims_iff (h : Prepared P S strict s out) (hS : S.Fair) (hn : P.funcs.Nodup) {f : FnId} {c : FuncCodes} :
    (f, c) ∈ s.claims ↔ Compared P f c := by
  have := Props.Claims.claims_exact (P.at_ s.collected) P.decls strict s.funcs f c
  rw [h.claims, h.funcs_iff hS hn] at this
  exact this.trans and_assoc

theorem claims_nodup (h : Prepared P S strict s out) (hS : S.Fair) (hn : P.funcs.Nodup) : (s.claims.map Prod.fst).Nodup := by
  have := (claims_sublist (env := P.at_ s.collected) (d := P.decls) (strict := strict) s.funcs).nodup (h.funcs_nodup hS hn)
  rwa [h.claims] at this

theorem order_nodup (h : Prepared P S strict s out) (hS : S.Fair) (hn : P.funcs.Nodup) : ((S.claims s.claims).map Prod.fst).Nodup :=
  (((hS.claims s.claims).map Prod.fst).nodup_iff).2 (h.claims_nodup hS hn)

theorem kept_sub {f : FnId} (h : Kept P f) : f ∈ P.funcs := by
  obtain ⟨pre, post, he, -⟩ := h; rw [he]; simp

/-- The claims are about different objects. -/
theorem claims_pairwise (h : Prepared P S strict s out) (hS : S.Fair) (ho : Objects P) {l : List (FnId × FuncCodes)} (hp : l.Perm s.claims) :
    l.Pairwise fun a b => P.env.funcObj a.1 ≠ P.env.funcObj b.1 := by
  have hn := ((hp.map Prod.fst).nodup_iff).2 (h.claims_nodup hS ho.funcs)
  have hsub : ∀ x ∈ l, x.1 ∈ P.funcs := fun x hx => kept_sub ((h.claims_iff hS ho.funcs (f := x.1) (c := x.2)).1 (hp.mem_iff.1 hx)).1
  clear hp
  induction l with
  | nil => exact .nil
  | cons a l ih =>
    rw [List.map_cons, List.nodup_cons] at hn
    refine .cons (fun b hb he => ?_) (ih hn.2 fun x hx => hsub x (by simp [hx]))
    have := ho.distinct _ (hsub a (by simp)) _ (hsub b (by simp [hb])) he
    exact hn.1 (this ▸ List.mem_map.2 ⟨b, hb, rfl⟩)

end Prepared
end Serum
