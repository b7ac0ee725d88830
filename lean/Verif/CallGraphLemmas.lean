import Verif.CallGraphLocal

/-!
# Invariants of the search without literal cycles

The invariant of `CallGraphLocal.lean` for programs in which no function literal can reach the function it is written in,
where everything holds for all functions.
-/

set_option linter.unusedSectionVars false

namespace Serum
namespace Search
variable {N D : Type} [DecidableEq N]

/-- Invariant of the search; `gs` are the functions being looked at, innermost first. -/
structure Inv (plan : N → Plan N D) (gs : List N) (st : Search N D) : Prop where
  stack_iff : ∀ x, x ∈ st.scc.stack ↔ st.scc.On x
  sorted : st.scc.stack.Pairwise (fun x y => st.scc.idx y < st.scc.idx x)
  idx_lt : ∀ x, st.scc.Vis x → st.scc.idx x < st.scc.index
  gray_on : ∀ g ∈ gs, g ∈ st.scc.stack
  toTop : ∀ x ∈ st.scc.stack, ∃ g, gs.head? = some g ∧ Reach (Calls plan) x g
  desc : ∀ g ∈ gs, ∀ y ∈ st.scc.stack, st.scc.idx g ≤ st.scc.idx y → Reach (Calls plan) g y
  black : ∀ x, st.scc.Vis x → x ∉ gs → ∀ y, Calls plan x y → st.scc.Vis y
  done : ∀ x, st.scc.Vis x → x ∉ st.scc.stack →
    ∀ y, Calls plan x y → st.scc.Vis y ∧ y ∉ st.scc.stack
  sound : ∀ x S, st.found x = some S → ∀ c ∈ S, CodesOf plan x c
  complete : ∀ x, st.scc.Vis x → x ∉ st.scc.stack →
    ∃ S, st.found x = some S ∧ ∀ c, CodesOf plan x c → c ∈ S
  raw : ∀ x ∈ st.scc.stack, x ∉ gs →
    ∃ S, st.found x = some S ∧ ∀ c, (plan x).Yields (Outer plan x) c → c ∈ S
  found_vis : ∀ x S, st.found x = some S → st.scc.Vis x ∧ x ∉ gs
  comps_iff : ∀ x, x ∈ st.comps.flatten ↔ st.scc.Vis x ∧ x ∉ st.scc.stack
  comps_nodup : st.comps.flatten.Nodup
  comps_ne : ∀ C ∈ st.comps, C ≠ []
  comps_scc : ∀ C ∈ st.comps, ∀ x ∈ C, ∀ y, y ∈ C ↔ Mutual (Calls plan) x y
  comps_order : ∀ pre C post, st.comps = pre ++ C :: post →
    ∀ x ∈ C, ∀ y, Reach (Calls plan) x y → y ∈ C ∨ y ∈ pre.flatten
  diags_vis : ∀ x, st.scc.Vis x → x ∉ gs → st.diagsOf x = (plan x).reports
  diags_new : ∀ x, ¬ st.scc.Vis x → st.diagsOf x = []

variable {plan : N → Plan N D}

theorem Inv.local {gs : List N} {st : Search N D} (h : Inv plan gs st) : InvG (fun _ => True) plan gs st :=
  ⟨h.stack_iff, h.sorted, h.idx_lt, h.gray_on, h.toTop, h.desc, h.black, fun x _ => h.done x, h.sound,
    fun x _ => h.complete x, fun x _ => h.raw x, h.found_vis,
    fun x hx hg => by
      by_cases hs : x ∈ st.scc.stack
      · obtain ⟨S, hS, _⟩ := h.raw x hs hg; exact ⟨S, hS⟩
      · obtain ⟨S, hS, _⟩ := h.complete x hx hs; exact ⟨S, hS⟩,
    fun x S hS c hc => by
      obtain ⟨hv, hg⟩ := h.found_vis x S hS
      by_cases hs : x ∈ st.scc.stack
      · obtain ⟨S', hS', hall⟩ := h.raw x hs hg
        rw [hS] at hS'; cases hS'
        exact hall c (Plan.Yields.mono (fun _ _ h => h.elim) _ _ hc)
      · obtain ⟨S', hS', hall⟩ := h.complete x hv hs
        rw [hS] at hS'; cases hS'
        exact hall c (CodesOf.consistent.1 x c (Plan.Yields.mono (fun _ _ h => h.elim) _ _ hc)),
    h.comps_iff, h.comps_nodup, h.comps_ne, fun C hC x hx y hy => (h.comps_scc C hC x hx y).1 hy,
    fun C hC x hx _ y hy => (h.comps_scc C hC x hx y).2 hy, fun pre C post e x hx _ => h.comps_order pre C post e x hx,
    h.diags_vis, h.diags_new⟩

theorem InvG.global {gs : List N} {st : Search N D} (h : InvG (fun _ => True) plan gs st) : Inv plan gs st :=
  ⟨h.stack_iff, h.sorted, h.idx_lt, h.gray_on, h.toTop, h.desc, h.black, fun x => h.done x trivial, h.sound,
    fun x => h.complete x trivial, fun x => h.raw x trivial, h.found_vis, h.comps_iff, h.comps_nodup, h.comps_ne,
    fun C hC x hx y => ⟨h.comps_mutual C hC x hx y, h.comps_scc C hC x hx trivial y⟩,
    fun pre C post e x hx => h.comps_order pre C post e x hx trivial, h.diags_vis, h.diags_new⟩

theorem inv_start : Inv plan [] (start : Search N D) := inv_startG.global

/-- After a complete search from `f`. -/
structure PostF (plan : N → Plan N D) (gs : List N) (f : N) (st : Search N D)
    (R : CodeSet) (st' : Search N D) : Prop where
  inv : Inv plan gs st'
  frame : Frame st st'
  same : ∀ x, st.scc.Vis x → st'.scc.vertices x = st.scc.vertices x
  diags : ∀ x, st.scc.Vis x → st'.diagsOf x = st.diagsOf x
  visf : st'.scc.Vis f
  reach : ∀ x, st'.scc.Vis x → st.scc.Vis x ∨ Reach (Calls plan) f x
  lowf : (st'.scc.stack = st.scc.stack ∧ st.scc.index ≤ st'.scc.low f) ∨
    (f ∈ st'.scc.stack ∧
     ∃ ext, st'.scc.stack = ext ++ st.scc.stack ∧
      (∃ z ∈ st.scc.stack, st'.scc.low f = st.scc.idx z ∧ Reach (Calls plan) f z) ∧
      (∀ x ∈ ext, ∀ z ∈ st.scc.stack, Calls plan x z → st'.scc.low f ≤ st.scc.idx z))
  sound : ∀ c ∈ R, CodesOf plan f c
  complete : f ∉ st'.scc.stack → ∀ c, CodesOf plan f c → c ∈ R


theorem PostFG.global {gs : List N} {f : N} {st st' : Search N D} {R : CodeSet}
    (h : PostFG (fun _ => True) plan gs f st R st') : PostF plan gs f st R st' := by
  refine ⟨h.inv.global, h.frame, h.same, h.diags, h.visf, h.reach, ?_, h.sound, h.complete trivial⟩
  rcases h.lowf with h | ⟨h1, ext, h2, h3, h4⟩
  · exact .inl h
  · exact .inr ⟨h1, ext, h2, h3, fun x hx => h4 x hx trivial⟩

theorem findInFunc_spec (hlit : ∀ f, ∀ z ∈ (plan f).visits, ¬ Reach (Calls plan) z f) (fuel : Nat)
    (gs : List N) (g : N) (st : Search N D) (hinv : Inv plan gs st) (hnew : ¬ st.scc.Vis g)
    (hE : ∀ h, gs.head? = some h → Calls plan h g) :
    Holds plan (findInFunc plan fuel g st) (fun r => PostF plan gs g st r.1 r.2) := by
  have h := findInFunc_specG (G := fun _ => True) (fun _ _ _ _ => trivial) (fun f _ => hlit f) fuel gs g st
    hinv.local hnew hE
  cases hr : findInFunc plan fuel g st with
  | error e => rw [hr] at h; exact h
  | ok r => rw [hr] at h; exact PostFG.global h

end Search
end Serum
