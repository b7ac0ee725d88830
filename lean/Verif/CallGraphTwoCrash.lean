import Verif.CallGraphCrash
import Verif.RunOnce

/-! # When the two phases of a run succeed

First the functions with declarations are analysed, as `p₁`; then, while conversions are checked, further functions, as `p₂`. -/

set_option linter.unusedSectionVars false

namespace Serum
namespace Search
variable {N D : Type} [DecidableEq N]

theorem findAll_append {plan : N → Plan N D} {fuel : Nat} : ∀ {xs ys : List N} {st : Search N D} {r},
    findAll plan fuel (xs ++ ys) st = .ok r ↔
      ∃ a b, findAll plan fuel xs st = .ok a ∧ findAll plan fuel ys a.2 = .ok b ∧ r = (a.1 ++ b.1, b.2)
  | [], ys, st, r => by
    constructor
    · intro h; exact ⟨([], st), r, rfl, h, by simp⟩
    · rintro ⟨a, b, h1, h2, rfl⟩; cases h1; exact h2
  | x :: xs, ys, st, r => by
    have e : ∀ l : List N, findAll plan fuel (x :: l) st = (do
        let (s, st) ← findCached plan fuel x st
        let (rs, st) ← findAll plan fuel l st
        pure ((x, s) :: rs, st)) := fun _ => rfl
    rw [List.cons_append, e, e]
    simp only [bind, Except.bind, pure, Except.pure]
    cases hc : findCached plan fuel x st with
    | error e =>
      simp only
      constructor
      · intro h; cases h
      · rintro ⟨a, b, h1, -⟩; cases h1
    | ok q =>
      simp only
      constructor
      · intro h
        cases hr : findAll plan fuel (xs ++ ys) q.2 with
        | error e => rw [hr] at h; cases h
        | ok r' =>
          rw [hr] at h
          cases h
          obtain ⟨a, b, h1, h2, rfl⟩ := findAll_append.1 hr
          exact ⟨((x, q.1) :: a.1, a.2), b, by rw [h1], h2, rfl⟩
      · rintro ⟨a, b, h1, h2, rfl⟩
        cases hr : findAll plan fuel xs q.2 with
        | error e => rw [hr] at h1; cases h1
        | ok a' =>
          rw [hr] at h1
          cases h1
          rw [findAll_append.2 ⟨a', b, hr, h2, rfl⟩]
          rfl

theorem findAll_congr {p₁ p₂ : N → Plan N D} {fuel : Nat} : ∀ {xs : List N} {st : Search N D}, AgreeNew p₁ p₂ st →
    findAll p₁ fuel xs st = findAll p₂ fuel xs st
  | [], _, _ => rfl
  | x :: xs, st, h => by
    obtain ⟨h1, h2⟩ := findCached_congr fuel x st h
    unfold findAll
    rw [h1]
    cases hc : findCached p₂ fuel x st with
    | error e => rfl
    | ok q =>
      simp only [bind, Except.bind]
      rw [findAll_congr (xs := xs) (st := q.2) fun y hy => h y fun hv => hy (h2 _ hc y hv)]

theorem _root_.Serum.Reach.cases_tail {E : N → N → Prop} {a b : N} (h : Reach E a b) : a = b ∨ ∃ y, Reach E a y ∧ E y b := by
  induction h with
  | refl a => exact .inl rfl
  | @step a b c e _ ih =>
    rcases ih with rfl | ⟨y, h1, h2⟩
    · exact .inr ⟨a, .refl a, e⟩
    · exact .inr ⟨y, .step e h1, h2⟩

theorem Fresh.congr {p q : N → Plan N D} {own : List N} {st st' : Search N D} (h : Fresh p own st st')
    (hag : ∀ x, st'.scc.Vis x → ¬ st.scc.Vis x → q x = p x) : Fresh q own st st' where
  grow := h.grow
  own_new := h.own_new
  own_nodup := h.own_nodup
  nodup := fun x hx hn => by rw [hag x hx hn]; exact h.nodup x hx hn
  new := fun x hx hn => by rw [hag x hx hn]; exact h.new x hx hn
  apart := fun x y z hx hn hy hm => by rw [hag x hx hn, hag y hy hm]; exact h.apart x y z hx hn hy hm
  apart_own := fun x z hx hn => by rw [hag x hx hn]; exact h.apart_own x z hx hn

/-- The two phases succeed if and only if no function that comes up panics by itself, and no literal is found twice as the value of a
called variable. -/
theorem two_phases_iff {p₁ p₂ mix : N → Plan N D} {order asked : List N} {n₁ n₂ : Nat}
    (h1 : ∀ x, (∃ f ∈ order, Reach (Calls p₁) f x) → mix x = p₁ x) (h2 : ∀ x, (¬ ∃ f ∈ order, Reach (Calls p₁) f x) → mix x = p₂ x)
    (hv : ∀ f, (∃ r ∈ order ++ asked, Reach (Calls mix) r f) → ∀ z ∈ (mix f).visits, z ∉ order ++ asked ∧
      ∀ g, (∃ r ∈ order ++ asked, Reach (Calls mix) r g) → z ∉ (mix g).calls) (hn₁ : findAll p₁ n₁ order start ≠ .error .outOfFuel)
    (hn₂ : ∀ st, findAll p₂ n₂ asked st ≠ .error .outOfFuel) :
    (∃ a b, findAll p₁ n₁ order start = .ok a ∧ findAll p₂ n₂ asked a.2 = .ok b) ↔
    ∀ f, (∃ r ∈ order ++ asked, Reach (Calls mix) r f) → (mix f).panics = false ∧ (mix f).visits.Nodup ∧
      ∀ g, (∃ r ∈ order ++ asked, Reach (Calls mix) r g) → g ≠ f → ∀ z ∈ (mix f).visits, z ∉ (mix g).visits := by
  have h0 : ∀ g, ¬ (Search.start : Search N D).scc.Vis g := fun g => by simp [Search.start, Scc.start, Scc.Vis]
  -- a function reached first is reached in the mixed program
  have hmono : ∀ {f x}, f ∈ order → Reach (Calls p₁) f x → Reach (Calls mix) f x := by
    intro f x hf hr
    have key : ∀ {a b}, Reach (Calls p₁) a b → (∃ f ∈ order, Reach (Calls p₁) f a) → Reach (Calls mix) a b := by
      intro a b hab
      induction hab with
      | refl a => exact fun _ => .refl a
      | @step a b c e _ ih =>
        rintro ⟨f, hf, ha⟩
        have e' : Calls mix a b := by unfold Calls at e ⊢; rw [h1 a ⟨f, hf, ha⟩]; exact e
        exact .step e' (ih ⟨f, hf, ha.snoc e⟩)
    exact key hr ⟨f, hf, .refl f⟩
  constructor
  · rintro ⟨a, b, ha, hb⟩
    obtain ⟨hl, -⟩ := findAll_looked _ order _ _ tidy_start ha
    have hag : AgreeNew p₂ mix a.2 := fun x hx => (h2 x fun h => hx ((hl.vis_iff x).2 h)).symm
    rw [findAll_congr hag] at hb
    have hlm := hl.plan_congr (plan' := mix) fun x hx => (h1 x ((hl.vis_iff x).1 hx)).symm
    obtain ⟨hl2, -⟩ := findAll_looked _ asked _ _ hlm.tidy hb
    have hlm2 := hlm.trans' hl2
    have hf1 := (findAll_fresh _ order _ _ ha).congr (q := mix) fun x hx _ => h1 x ((hl.vis_iff x).1 hx)
    have hf2 := findAll_fresh _ asked _ _ hb
    have hf := hf1.trans hf2
    have hc1 := findAll_calm _ order _ _ ha
    have hc2 := findAll_calm _ asked _ _ hb
    intro f hr
    have hvf := (hlm2.vis_iff f).2 hr
    refine ⟨?_, hf.nodup f hvf (h0 f), fun g hg hne z hz hz' => hne ?_⟩
    · rcases hc2 f hvf with h | h
      · rw [h1 f ((hl.vis_iff f).1 h)]
        exact (hc1 f h).resolve_left (h0 f)
      · exact h
    · exact hf.apart g f z ((hlm2.vis_iff g).2 hg) (h0 g) hvf (h0 f) hz' hz
  · intro h
    have hs : Safe mix fun f => ∃ r ∈ order ++ asked, Reach (Calls mix) r f :=
      ⟨fun x ⟨r, hr, hx⟩ y hy => ⟨r, hr, hx.snoc hy⟩, fun x hx => (h x hx).1, fun x hx => (h x hx).2.1,
        fun x y z hx hy hzx hzy => Classical.byContradiction fun hne => (h x hx).2.2 y hy (fun e => hne e.symm) z hzx hzy,
        fun x y z hx hy hz => (hv x hx z hz).2 y hy⟩
    have hsub : ∀ x, (∃ f ∈ order, Reach (Calls p₁) f x) → ∃ r ∈ order ++ asked, Reach (Calls mix) r x :=
      fun x ⟨f, hf, hx⟩ => ⟨f, by simp [hf], hmono hf hx⟩
    have hs₁ : Safe p₁ fun f => ∃ r ∈ order, Reach (Calls p₁) r f := by
      refine ⟨fun x ⟨r, hr, hx⟩ y hy => ⟨r, hr, hx.snoc hy⟩, fun x hx => ?_, fun x hx => ?_, fun x y z hx hy => ?_, fun x y z hx hy => ?_⟩
      · rw [← h1 x hx]; exact hs.calm x (hsub x hx)
      · rw [← h1 x hx]; exact hs.nodup x (hsub x hx)
      · rw [← h1 x hx, ← h1 y hy]; exact hs.apart x y z (hsub x hx) (hsub y hy)
      · rw [← h1 x hx, ← h1 y hy]; exact hs.uncalled x y z (hsub x hx) (hsub y hy)
    have k1 := findAll_safe hs₁ n₁ order start (fun f hf => ⟨f, hf, .refl f⟩)
      (fun f hf g hg hz => (hv g (hsub g hg) f (by rw [h1 g hg]; exact hz)).1 (by simp [hf])) (by simp [start, Scc.start, Scc.Vis])
      (fun f z _ _ hz => absurd hz (h0 z))
    cases ha : findAll p₁ n₁ order start with
    | error e => rw [ha] at k1; exact absurd (ha.trans (congrArg _ k1)) hn₁
    | ok a =>
      rw [ha] at k1
      obtain ⟨-, hfound, -⟩ := k1
      obtain ⟨hl, -⟩ := findAll_looked _ order _ _ tidy_start ha
      have hag : AgreeNew p₂ mix a.2 := fun x hx => (h2 x fun h => hx ((hl.vis_iff x).2 h)).symm
      have hgood : Good mix (fun f => ∃ r ∈ order ++ asked, Reach (Calls mix) r f) a.2 := by
        intro f z hf hz hvz
        obtain ⟨g, hg, hr⟩ := (hl.vis_iff z).1 hvz
        rcases hr.cases_tail with e | ⟨y, hy, hc⟩
        · exact absurd (by simp [← e, hg]) (hv f hf z hz).1
        · have hy' : ∃ f ∈ order, Reach (Calls p₁) f y := ⟨g, hg, hy⟩
          have hc' : z ∈ (mix y).targets := by rw [h1 y hy']; exact hc
          rcases (Plan.mem_targets_iff _).1 hc' with k | k
          · exact absurd k ((hv f hf z hz).2 y (hsub y hy'))
          · rw [hs.apart f y z hf (hsub y hy') hz k]; exact (hl.vis_iff y).2 hy'
      have k2 := findAll_safe hs n₂ asked a.2 (fun f hf => ⟨f, by simp [hf], .refl f⟩)
        (fun f hf g hg hz => (hv g hg f hz).1 (by simp [hf])) hfound hgood
      rw [← findAll_congr hag] at k2
      cases hb : findAll p₂ n₂ asked a.2 with
      | error e => rw [hb] at k2; exact absurd (hb.trans (congrArg _ k2)) (hn₂ a.2)
      | ok b => exact ⟨a, b, rfl, hb⟩

end Search

namespace Conv
open ConvSpec
variable {D : Type} {env : Env} {o : Orders} {plan : FnId → Plan FnId D} {fuel : Nat}

/-- The types in a sequence of checks have the methods of the interfaces. -/
def MethodsExist (env : Env) (ss : List Step) : Prop :=
  ∀ c, .check c ∈ ss → c.source ≠ c.target → c.source ≠ .untypedNil → ∀ m allowed, (m, allowed) ∈ c.methods → ∃ ob, MethodOf env c.source m ob

theorem methodCodes_iff {source : GoType} {m : GoString × CodeSet} {st st' : Search FnId D} :
    (∃ S, methodCodes env plan fuel source m.1 st = .ok (S, st')) ↔
      (∃ ob, MethodOf env source m.1 ob) ∧ ∃ l, Search.findAll plan fuel (askedFor env source m) st = .ok (l, st') := by
  unfold methodCodes askedFor
  cases h1 : env.searchMethodType source m.1 with
  | none =>
    simp only
    constructor
    · rintro ⟨S, h⟩; cases h
    · rintro ⟨⟨ob, h⟩, -⟩; rw [searchMethodType_iff.2 h] at h1; cases h1
  | some ob =>
    have hob := searchMethodType_iff.1 h1
    simp only
    cases h2 : env.facts.codes ob with
    | some codes =>
      simp only [Search.findAll, Except.ok.injEq, Prod.mk.injEq, exists_and_right, exists_eq', true_and]
      exact ⟨fun h => ⟨⟨ob, hob⟩, h⟩, fun h => h.2⟩
    | none =>
      simp only
      cases h3 : env.searchMethod source m.1 with
      | none =>
        simp only [Option.toList, Search.findAll, Except.ok.injEq, Prod.mk.injEq, exists_and_right, exists_eq', true_and]
        exact ⟨fun h => ⟨⟨ob, hob⟩, h⟩, fun h => h.2⟩
      | some f =>
        simp only [Option.toList, Search.findAll, bind, Except.bind, pure, Except.pure]
        cases hc : Search.findCached plan fuel f st with
        | error e =>
          constructor
          · rintro ⟨S, h⟩; cases h
          · rintro ⟨-, S, h⟩; cases h
        | ok q =>
          simp only [Except.ok.injEq, Prod.mk.injEq]
          constructor
          · rintro ⟨S, h⟩; subst h; exact ⟨⟨ob, hob⟩, _, rfl, rfl⟩
          · rintro ⟨-, l, -, h⟩; exact ⟨q.1, by rw [← h]⟩

theorem checkMethods_iff {c : Check} : ∀ {ms : List (GoString × CodeSet)} {st st' : Search FnId D},
    (∃ rs, checkMethods env o plan fuel c ms st = .ok (rs, st')) ↔
      (∀ m ∈ ms, ∃ ob, MethodOf env c.source m.1 ob) ∧ ∃ l, Search.findAll plan fuel (ms.flatMap (askedFor env c.source)) st = .ok (l, st')
  | [], st, st' => by
    simp [checkMethods, Search.findAll]
  | (m, allowed) :: ms, st, st' => by
    rw [List.flatMap_cons]
    constructor
    · rintro ⟨rs, h⟩
      unfold checkMethods at h
      simp only [bind, Except.bind] at h
      split at h
      · cases h
      rename_i r1 h1
      obtain ⟨found, st1⟩ := r1
      simp only at h
      split at h
      · cases h
      rename_i r2 h2
      cases h
      obtain ⟨k1, l1, k2⟩ := (methodCodes_iff (m := (m, allowed))).1 ⟨_, h1⟩
      obtain ⟨k3, l2, k4⟩ := checkMethods_iff.1 ⟨_, h2⟩
      refine ⟨fun x hx => ?_, _, Search.findAll_append.2 ⟨_, _, k2, k4, rfl⟩⟩
      rcases List.mem_cons.1 hx with rfl | hx
      · exact k1
      · exact k3 x hx
    · rintro ⟨hm, l, h⟩
      obtain ⟨a, b, h1, h2, e⟩ := Search.findAll_append.1 h
      obtain ⟨-, rfl⟩ := Prod.mk.inj e
      obtain ⟨S, k1⟩ := (methodCodes_iff (m := (m, allowed))).2 ⟨hm _ (by simp), a.1, h1⟩
      obtain ⟨rs, k2⟩ := checkMethods_iff.2 ⟨fun x hx => hm x (by simp [hx]), b.1, h2⟩
      unfold checkMethods
      simp only at k1
      simp only [bind, Except.bind, k1, k2]
      exact ⟨_, rfl⟩

theorem runCheck_iff (ho : o.Fair) {c : Check} {st st' : Search FnId D} :
    (∃ rs, runCheck env o plan fuel c st = .ok (rs, st')) ↔
      (c.source ≠ c.target → c.source ≠ .untypedNil → ∀ m allowed, (m, allowed) ∈ c.methods → ∃ ob, MethodOf env c.source m ob) ∧
      ∃ l, Search.findAll plan fuel (askedIn env o c) st = .ok (l, st') := by
  unfold runCheck askedIn
  by_cases he : c.source = c.target
  · rw [if_pos he, if_pos (.inl he)]
    simp [Search.findAll, he]
  · rw [if_neg he]
    by_cases hn : c.source = .untypedNil
    · rw [if_pos (.inr hn), hn]
      simp [Search.findAll]
    · rw [if_neg (by rintro (h | h); exact he h; exact hn h)]
      split
      · rename_i h; exact absurd h hn
      rw [checkMethods_iff]
      refine and_congr_left fun _ => ⟨fun h _ _ m al hm => h (m, al) ((ho.methods _).mem_iff.2 hm), fun h m hm =>
        h he hn m.1 m.2 ((ho.methods _).mem_iff.1 hm)⟩

theorem runSteps_iff (ho : o.Fair) : ∀ {ss : List Step} {st st' : Search FnId D},
    (∃ rs, runSteps env o plan fuel ss st = .ok (rs, st')) ↔
      (∀ loc, .panic loc ∉ ss) ∧ MethodsExist env ss ∧ ∃ l, Search.findAll plan fuel (askedAll env o ss) st = .ok (l, st')
  | [], st, st' => by simp [runSteps, askedAll, Search.findAll, MethodsExist]
  | .panic l :: ss, st, st' => by
    constructor
    · rintro ⟨rs, h⟩; cases h
    · rintro ⟨h, -⟩; exact absurd List.mem_cons_self (h l)
  | .check c :: ss, st, st' => by
    constructor
    · rintro ⟨rs, h⟩
      unfold runSteps at h
      simp only [bind, Except.bind] at h
      split at h
      · cases h
      rename_i r1 h1
      obtain ⟨rs1, st1⟩ := r1
      simp only at h
      split at h
      · cases h
      rename_i r2 h2
      cases h
      obtain ⟨k1, l1, k2⟩ := (runCheck_iff ho).1 ⟨_, h1⟩
      obtain ⟨k3, k4, l2, k5⟩ := (runSteps_iff ho).1 ⟨_, h2⟩
      refine ⟨fun loc hm => ?_, fun c' hc' => ?_, _, Search.findAll_append.2 ⟨_, _, k2, k5, rfl⟩⟩
      · rcases List.mem_cons.1 hm with hm | hm
        · cases hm
        · exact k3 loc hm
      · simp only [List.mem_cons, Step.check.injEq] at hc'
        rcases hc' with rfl | hc'
        · exact k1
        · exact k4 c' hc'
    · rintro ⟨hp, hm, l, h⟩
      obtain ⟨a, b, h1, h2, e⟩ := Search.findAll_append.1 h
      obtain ⟨-, rfl⟩ := Prod.mk.inj e
      obtain ⟨rs1, k1⟩ := (runCheck_iff (c := c) ho).2 ⟨hm c (by simp), a.1, h1⟩
      obtain ⟨rs2, k2⟩ := (runSteps_iff ho).2 ⟨fun loc h => hp loc (by simp [h]), fun c' hc' => hm c' (by simp [hc']), b.1, h2⟩
      unfold runSteps
      simp only [bind, Except.bind, k1, k2]
      exact ⟨_, rfl⟩

end Conv
end Serum
