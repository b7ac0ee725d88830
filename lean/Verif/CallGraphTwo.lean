import Verif.CallGraphTop
import Verif.CallGraphLocalTop

/-!
# Two phases of searching

The interface checks (interfaces_verify.go:511-514) continue the search of `runVerify`'s loop, after more
facts have been exported, so bodies not looked at before may be looked at differently than in the loop.
A body is looked at only once, so both phases together are a search in one program.
-/

set_option linter.unusedSectionVars false

namespace Serum
namespace Search
variable {N D : Type} [DecidableEq N]

/-- No visited function is forgotten. -/
def Grows (st : Search N D) (r : Except Stop (CodeSet × Search N D)) : Prop :=
  ∀ a, r = .ok a → ∀ x, st.scc.Vis x → a.2.scc.Vis x

/-- `p₁` and `p₂` agree on functions not visited yet. -/
def AgreeNew (p₁ p₂ : N → Plan N D) (st : Search N D) : Prop := ∀ x, ¬ st.scc.Vis x → p₁ x = p₂ x

theorem AgreeNew.mono {p₁ p₂ : N → Plan N D} {st st' : Search N D} (h : AgreeNew p₁ p₂ st)
    (hv : ∀ x, st.scc.Vis x → st'.scc.Vis x) : AgreeNew p₁ p₂ st' := fun x hx => h x fun hx' => hx (hv x hx')

theorem exec_congr {p₁ p₂ : N → Plan N D} {r₁ r₂ : N → Search N D → Except Stop (CodeSet × Search N D)}
    (hr : ∀ g st, AgreeNew p₁ p₂ st → r₁ g st = r₂ g st ∧ Grows st (r₂ g st)) (f : N) :
    ∀ (p : Plan N D) (st : Search N D), AgreeNew p₁ p₂ st →
      exec r₁ f p st = exec r₂ f p st ∧ Grows st (exec r₂ f p st) := by
  intro p
  induction p with
  | codes s => intro st _; exact ⟨rfl, fun a h x hx => by cases h; exact hx⟩
  | report d => intro st _; exact ⟨rfl, fun a h x hx => by cases h; exact hx⟩
  | panic loc => intro st _; exact ⟨rfl, fun a h => by cases h⟩
  | call g =>
    intro st hst
    unfold exec
    cases hh : st.scc.handleEdge f g with
    | error e => exact ⟨rfl, fun a h => by cases h⟩
    | ok r =>
      obtain ⟨b, scc⟩ := r
      have hv : ∀ x, st.scc.Vis x → scc.Vis x := fun x hx => handleEdge_vis hh hx
      simp only [bind, Except.bind]
      cases b with
      | false => exact ⟨rfl, fun a h x hx => by cases h; exact hv x hx⟩
      | true =>
        simp only [if_true]
        obtain ⟨h1, h2⟩ := hr g { st with scc := scc } (hst.mono hv)
        rw [h1]
        refine ⟨rfl, ?_⟩
        cases hr : r₂ g { st with scc := scc } with
        | error e => intro a h; cases h
        | ok r =>
          obtain ⟨R, st₂⟩ := r
          dsimp only
          cases ha : st₂.scc.afterRecurse f g with
          | error e => intro a h; cases h
          | ok s =>
            intro a h x hx
            cases h
            exact afterRecurse_vis ha (h2 _ hr x (hv x hx))
  | visit g => intro st hst; exact hr g st hst
  | union a b iha ihb =>
    intro st hst
    obtain ⟨h1, h2⟩ := iha st hst
    unfold exec
    rw [h1]
    cases ha : exec r₂ f a st with
    | error e => exact ⟨rfl, fun a h => by cases h⟩
    | ok r =>
      obtain ⟨x, st₁⟩ := r
      obtain ⟨h3, h4⟩ := ihb st₁ (hst.mono (h2 _ ha))
      simp only [bind, Except.bind]
      rw [h3]
      refine ⟨rfl, ?_⟩
      cases hb : exec r₂ f b st₁ with
      | error e => intro a h; cases h
      | ok r =>
        intro a h y hy
        cases h
        exact h4 _ hb y (h2 _ ha y hy)
  | minus a s iha =>
    intro st hst
    obtain ⟨h1, h2⟩ := iha st hst
    unfold exec
    rw [h1]
    refine ⟨rfl, ?_⟩
    cases ha : exec r₂ f a st with
    | error e => intro a h; cases h
    | ok r =>
      intro a h y hy
      cases h
      exact h2 _ ha y hy

theorem findInFunc_congr {p₁ p₂ : N → Plan N D} : ∀ (fuel : Nat) (f : N) (st : Search N D), AgreeNew p₁ p₂ st →
    findInFunc p₁ fuel f st = findInFunc p₂ fuel f st ∧ Grows st (findInFunc p₂ fuel f st) := by
  intro fuel
  induction fuel with
  | zero => intro f st _; exact ⟨rfl, fun a h => by cases h⟩
  | succ n ih =>
    intro f st hst
    unfold findInFunc Scc.visit
    cases hv : st.scc.vertices f with
    | some v => exact ⟨rfl, fun a h => by cases h⟩
    | none =>
      simp only [bind, Except.bind]
      have hp : p₁ f = p₂ f := hst f (by simp [Scc.Vis, hv])
      generalize hs : (Scc.mk (st.scc.index + 1)
        (st.scc.setVertex f ⟨st.scc.index, st.scc.index, true⟩).vertices (f :: st.scc.stack)) = s1
      have hmono : ∀ x, st.scc.Vis x → s1.Vis x := by
        intro x hx; subst hs; exact setVertex_vis hx
      obtain ⟨h1, h2⟩ := exec_congr (p₁ := p₁) (p₂ := p₂) (r₁ := findInFunc p₁ n) (r₂ := findInFunc p₂ n)
        ih f (p₂ f) { st with scc := s1 } (hst.mono hmono)
      rw [hp, h1]
      refine ⟨rfl, ?_⟩
      cases he : exec (findInFunc p₂ n) f (p₂ f) { st with scc := s1 } with
      | error e => intro a h; cases h
      | ok r =>
        obtain ⟨R, st₂⟩ := r
        dsimp only
        cases hend : (st₂.setFound f R).scc.endVisit f with
        | error e => intro a h; cases h
        | ok r =>
          obtain ⟨c, scc⟩ := r
          have h3 : ∀ x, st.scc.Vis x → scc.Vis x := fun x hx =>
            endVisit_vis hend (h2 _ he x (hmono x hx))
          cases c with
          | none => intro a h; cases h; exact h3
          | some C =>
            intro a h x hx
            cases h
            have := (unify_scc ({ (st₂.setFound f R) with
              scc := scc, comps := (st₂.setFound f R).comps ++ [C] } : Search N D) C).1
            show (unify _ C).2.scc.Vis x
            rw [this]; exact h3 x hx

theorem findCached_congr {p₁ p₂ : N → Plan N D} (fuel : Nat) (f : N) (st : Search N D) (h : AgreeNew p₁ p₂ st) :
    findCached p₁ fuel f st = findCached p₂ fuel f st ∧ Grows st (findCached p₂ fuel f st) := by
  unfold findCached
  cases st.found f with
  | some s => exact ⟨rfl, fun a h x hx => by cases h; exact hx⟩
  | none => exact findInFunc_congr fuel f st h

/-! ## The same codes, seen in two programs -/

variable {p q : N → Plan N D}

/-- On a set closed under calls, on which two programs agree, they agree about what is reachable and about the codes. -/
theorem Reach.transfer {S : N → Prop} (hag : ∀ x, S x → q x = p x) (hcl : ∀ x y, S x → Calls p x y → S y) {a b : N}
    (ha : S a) (h : Reach (Calls p) a b) : Reach (Calls q) a b ∧ S b := by
  induction h with
  | refl a => exact ⟨.refl a, ha⟩
  | @step a b c e _ ih =>
    have hb := hcl a b ha e
    have h1 := ih hb
    exact ⟨.step (by unfold Calls; rw [hag a ha]; exact e) h1.1, h1.2⟩

theorem yields_congr {ρ ρ' : N → GoString → Prop} {c : GoString} : ∀ (r : Plan N D),
    (∀ g ∈ r.targets, ρ g c → ρ' g c) → r.Yields ρ c → r.Yields ρ' c
  | .codes _, _, h => h
  | .report _, _, h => h
  | .panic _, _, h => h
  | .call g, hr, h => hr g (by simp [Plan.targets]) h
  | .visit g, hr, h => hr g (by simp [Plan.targets]) h
  | .union a b, hr, h => h.imp (yields_congr a fun g hg => hr g (by simp [Plan.targets, hg]))
      (yields_congr b fun g hg => hr g (by simp [Plan.targets, hg]))
  | .minus a s, hr, h => ⟨yields_congr a (fun g hg => hr g (by simp [Plan.targets, hg])) h.1, h.2⟩

theorem codesOf_transfer {S : N → Prop} (hag : ∀ x, S x → q x = p x) (hcl : ∀ x y, S x → Calls p x y → S y) {x : N}
    (hx : S x) {c : GoString} : CodesOf q x c ↔ CodesOf p x c := by
  have hcl' : ∀ x y, S x → Calls q x y → S y := by
    intro x y hx hc
    unfold Calls at hc; rw [hag x hx] at hc; exact hcl x y hx hc
  have hag' : ∀ x, S x → p x = q x := fun x hx => (hag x hx).symm
  -- both directions by the same argument
  have main : ∀ (p q : N → Plan N D), (∀ x, S x → q x = p x) → (∀ x y, S x → Calls p x y → S y) →
      (∀ x y, S x → Calls q x y → S y) → ∀ x, S x → CodesOf q x c → CodesOf p x c := by
    intro p q hag hcl hcl' x hx h
    have := h (fun f d => S f → CodesOf p f d) ⟨?_, ?_⟩
    · exact this hx
    · intro f d hy hf
      refine CodesOf.consistent.1 f d ?_
      rw [← hag f hf]
      exact yields_congr _ (fun g hg hgd => hgd (hcl' f g hf hg)) hy
    · intro f g d hm hg hf
      have h1 := Reach.transfer (p := q) (q := p) (fun x hx => (hag x hx).symm) hcl' hf hm.1
      have h2 := Reach.transfer (p := q) (q := p) (fun x hx => (hag x hx).symm) hcl' h1.2 hm.2
      exact CodesOf.consistent.2 f g d ⟨h1.1, h2.1⟩ (hg h1.2)
  exact ⟨main p q hag hcl hcl' x hx, main q p hag' hcl' hcl x hx⟩

theorem visits_targets : ∀ (r : Plan N D) {z : N}, z ∈ r.visits → z ∈ r.targets
  | .codes _, _, h => h
  | .report _, _, h => h
  | .panic _, _, h => h
  | .call _, _, h => (nomatch h)
  | .visit _, _, h => h
  | .union a b, _, h => by
    rcases List.mem_append.1 (show _ ∈ a.visits ++ b.visits from h) with h | h
    · exact List.mem_append.2 (.inl (visits_targets a h))
    · exact List.mem_append.2 (.inr (visits_targets b h))
  | .minus a _, _, h => visits_targets a h

/-- On a set closed under calls, on which two programs agree, they agree about literals that call back. -/
theorem noCallback_transfer {S : N → Prop} (hag : ∀ x, S x → q x = p x) (hcl : ∀ x y, S x → Calls p x y → S y) {x : N} (hx : S x)
    (h : ∀ g, Reach (Calls q) x g → ∀ z ∈ (q g).visits, ¬ Reach (Calls q) z g) :
    ∀ g, Reach (Calls p) x g → ∀ z ∈ (p g).visits, ¬ Reach (Calls p) z g := by
  intro g hg z hz hr
  obtain ⟨h1, h2⟩ := Reach.transfer hag hcl hx hg
  have hSz : S z := hcl g z h2 (visits_targets _ hz)
  refine h g h1 z (by rw [hag g h2]; exact hz) (Reach.transfer hag hcl hSz hr).1

/-- The invariant of a finished search carries over to a program that agrees on everything visited. -/
theorem InvG.transfer {G G' : N → Prop} {st : Search N D} (h : InvG G p [] st) (hag : ∀ x, st.scc.Vis x → q x = p x)
    (hGG : ∀ x, st.scc.Vis x → G' x → G x) : InvG G' q [] st := by
  have hcl : ∀ x y, st.scc.Vis x → Calls p x y → st.scc.Vis y := fun x y hx hc => h.black x hx (by simp) y hc
  have hcl' : ∀ x y, st.scc.Vis x → Calls q x y → st.scc.Vis y := by
    intro x y hx hc
    unfold Calls at hc; rw [hag x hx] at hc; exact hcl x y hx hc
  have hag' : ∀ x, st.scc.Vis x → p x = q x := fun x hx => (hag x hx).symm
  have hc : ∀ x y, st.scc.Vis x → (Calls q x y ↔ Calls p x y) := by
    intro x y hx; unfold Calls; rw [hag x hx]
  have hreach : ∀ x y, st.scc.Vis x → (Reach (Calls q) x y ↔ Reach (Calls p) x y) := fun x y hx =>
    ⟨fun h => (Reach.transfer hag' hcl' hx h).1, fun h => (Reach.transfer hag hcl hx h).1⟩
  have hnil := h.stack_nil
  have hmut : ∀ x y, st.scc.Vis x → (Mutual (Calls q) x y ↔ Mutual (Calls p) x y) := by
    intro x y hx
    unfold Mutual
    rw [hreach x y hx]
    refine and_congr_right fun hr => ?_
    exact hreach y x (Reach.transfer hag hcl hx hr).2
  have hcomp : ∀ C ∈ st.comps, ∀ x ∈ C, st.scc.Vis x := fun C hC x hx =>
    ((h.comps_iff x).1 (List.mem_flatten.2 ⟨C, hC, hx⟩)).1
  exact {
    stack_iff := h.stack_iff
    sorted := h.sorted
    idx_lt := h.idx_lt
    gray_on := h.gray_on
    toTop := fun x hx => by rw [hnil] at hx; cases hx
    desc := fun g hg => by cases hg
    black := fun x hx hg y hy => hcl' x y hx hy
    done := fun x hG hx hg y hy => h.done x (hGG x hx hG) hx hg y ((hc x y hx).1 hy)
    sound := fun x S hS c hcS =>
      (codesOf_transfer hag hcl (h.found_vis x S hS).1).2 (h.sound x S hS c hcS)
    complete := fun x hG hx hg => by
      obtain ⟨S, hS, hall⟩ := h.complete x (hGG x hx hG) hx hg
      exact ⟨S, hS, fun c hc => hall c ((codesOf_transfer hag hcl hx).1 hc)⟩
    raw := fun x _ hx => by rw [hnil] at hx; cases hx
    found_vis := h.found_vis
    has := h.has
    own := fun x S hS c hy => h.own x S hS c (by rw [← hag x (h.found_vis x S hS).1]; exact hy)
    comps_iff := h.comps_iff
    comps_nodup := h.comps_nodup
    comps_ne := h.comps_ne
    comps_mutual := fun C hC x hx y hy => (hmut x y (hcomp C hC x hx)).2 (h.comps_mutual C hC x hx y hy)
    comps_scc := fun C hC x hx hG y hm =>
      h.comps_scc C hC x hx (hGG x (hcomp C hC x hx) hG) y ((hmut x y (hcomp C hC x hx)).1 hm)
    comps_order := fun pre C post he x hx hG y hr =>
      h.comps_order pre C post he x hx (hGG x (hcomp C (by rw [he]; simp) x hx) hG) y ((hreach x y (hcomp C (by rw [he]; simp) x hx)).1 hr)
    diags_vis := fun x hx hg => by rw [h.diags_vis x hx hg, hag x hx]
    diags_new := h.diags_new }

open Classical in
/-- The program seen by both phases: functions visited in the first phase as they were looked at then, the others as they
are looked at in the second. -/
noncomputable def mixed (st : Search N D) (p₁ p₂ : N → Plan N D) : N → Plan N D :=
  fun x => if st.scc.Vis x then p₁ x else p₂ x

theorem InvG.mixed {G G' : N → Prop} {st : Search N D} {p₁ p₂ : N → Plan N D} (h : InvG G p₁ [] st) (hGG : ∀ x, st.scc.Vis x → G' x → G x) :
    InvG G' (mixed st p₁ p₂) [] st :=
  h.transfer (fun x hx => by simp [Search.mixed, hx]) hGG

theorem mixed_agree {st : Search N D} {p₁ p₂ : N → Plan N D} : AgreeNew p₂ (mixed st p₁ p₂) st :=
  fun x hx => by simp [Search.mixed, hx]

end Search
end Serum
