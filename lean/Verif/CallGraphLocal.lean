import Verif.Spec.CallGraphSpec
import Verif.CodeSetLemmas

/-!
# Invariants of the search

Proof support for `Props/Components.lean` and `Props/CallGraph.lean`.
-/

set_option linter.unusedSectionVars false

namespace Serum

/-! ## Reachability -/

namespace Reach
variable {N : Type} {E : N → N → Prop}

theorem trans {a b c : N} (h₁ : Reach E a b) (h₂ : Reach E b c) : Reach E a c := by
  induction h₁ with
  | refl => exact h₂
  | step e _ ih => exact .step e (ih h₂)

theorem edge {a b : N} (h : E a b) : Reach E a b := .step h (.refl b)

theorem snoc {a b c : N} (h₁ : Reach E a b) (h₂ : E b c) : Reach E a c := h₁.trans (edge h₂)

/-- A set closed under `E` is closed under reachability. -/
theorem closed {S : N → Prop} (hS : ∀ a b, S a → E a b → S b) {a b : N} (h : Reach E a b) :
    S a → S b := by
  induction h with
  | refl => exact id
  | step e _ ih => exact fun ha => ih (hS _ _ ha e)

end Reach

theorem Mutual.symm {N : Type} {E : N → N → Prop} {a b : N} (h : Mutual E a b) : Mutual E b a :=
  ⟨h.2, h.1⟩

theorem Mutual.trans {N : Type} {E : N → N → Prop} {a b c : N} (h : Mutual E a b)
    (h' : Mutual E b c) : Mutual E a c := ⟨h.1.trans h'.1, h'.2.trans h.2⟩

/-! ## Codes -/

section
variable {N D : Type} {plan : N → Plan N D}

theorem Plan.Yields.mono {ρ ρ' : N → GoString → Prop} (h : ∀ f c, ρ f c → ρ' f c) :
    ∀ (p : Plan N D) (c), p.Yields ρ c → p.Yields ρ' c
  | .codes _, _, hc => hc
  | .report _, _, hc => hc
  | .panic _, _, hc => hc
  | .call g, c, hc => h g c hc
  | .visit g, c, hc => h g c hc
  | .union a b, c, hc => hc.imp (mono h a c) (mono h b c)
  | .minus a _, c, hc => ⟨mono h a c hc.1, hc.2⟩

theorem CodesOf.consistent : Consistent plan (CodesOf plan) := by
  constructor
  · intro f c h ρ hρ
    exact hρ.1 f c (Plan.Yields.mono (fun g c hg => hg ρ hρ) _ _ h)
  · intro f g c hm h ρ hρ
    exact hρ.2 f g c hm (h ρ hρ)

end

/-! ## Views of the SCC state -/

namespace Scc
variable {N : Type} [DecidableEq N]

/-- `x` was visited. -/
def Vis (s : Scc N) (x : N) : Prop := s.vertices x ≠ none
/-- index of `x`. -/
def idx (s : Scc N) (x : N) : Nat := ((s.vertices x).map Vertex.index).getD 0
/-- low index of `x`. -/
def low (s : Scc N) (x : N) : Nat := ((s.vertices x).map Vertex.lowindex).getD 0
/-- `isOnStack` of `x`. -/
def On (s : Scc N) (x : N) : Prop := ∃ v, s.vertices x = some v ∧ v.isOnStack = true

theorem On.vis {s : Scc N} {x : N} (h : s.On x) : s.Vis x := by
  obtain ⟨v, hv, _⟩ := h; simp [Vis, hv]

/-- Lowering the low index of one visited node. -/
structure Lowered (s s' : Scc N) (f : N) (k : Nat) : Prop where
  other : ∀ x, x ≠ f → s'.vertices x = s.vertices x
  vis : ∀ x, s'.Vis x ↔ s.Vis x
  on : ∀ x, s'.On x ↔ s.On x
  idx : ∀ x, s'.idx x = s.idx x
  low : s'.low f = min (s.low f) k
  stack : s'.stack = s.stack
  index : s'.index = s.index

theorem lowered_set {s : Scc N} {f : N} {v : Vertex} (h : s.vertices f = some v) (k : Nat) :
    Lowered s (s.setVertex f { v with lowindex := min v.lowindex k }) f k := by
  refine ⟨?_, ?_, ?_, ?_, ?_, rfl, rfl⟩
  · intro x hx; simp [setVertex, hx]
  · intro x; by_cases hx : x = f <;> simp [Vis, setVertex, hx, h]
  · intro x; by_cases hx : x = f <;> simp [On, setVertex, hx, h]
  · intro x; by_cases hx : x = f <;> simp [Scc.idx, setVertex, hx, h]
  · simp [Scc.low, setVertex, h]

theorem popTo_append {f : N} {ext base : List N} (h : f ∉ ext) :
    popTo f (ext ++ f :: base) = some (ext ++ [f], base) := by
  induction ext with
  | nil => simp [popTo]
  | cons x xs ih =>
    have hx : x ≠ f := fun e => h (by simp [e])
    simp [popTo, hx, ih (fun hm => h (by simp [hm]))]

end Scc

/-! ## The invariant -/

namespace Search
variable {N D : Type} [DecidableEq N]

/-- The diagnostics of `x`. -/
def diagsOf (st : Search N D) (x : N) : List D :=
  st.diags.filterMap (fun p => if p.1 = x then some p.2 else none)

/-- Codes coming to `x` from outside its recursion cycle. -/
def Outer (plan : N → Plan N D) (x : N) (y : N) (c : GoString) : Prop :=
  ¬ Reach (Calls plan) y x ∧ CodesOf plan y c

/-- Invariant of the search; `gs` are the functions being looked at, innermost first. -/
structure InvG (G : N → Prop) (plan : N → Plan N D) (gs : List N) (st : Search N D) : Prop where
  stack_iff : ∀ x, x ∈ st.scc.stack ↔ st.scc.On x
  sorted : st.scc.stack.Pairwise (fun x y => st.scc.idx y < st.scc.idx x)
  idx_lt : ∀ x, st.scc.Vis x → st.scc.idx x < st.scc.index
  gray_on : ∀ g ∈ gs, g ∈ st.scc.stack
  toTop : ∀ x ∈ st.scc.stack, ∃ g, gs.head? = some g ∧ Reach (Calls plan) x g
  desc : ∀ g ∈ gs, ∀ y ∈ st.scc.stack, st.scc.idx g ≤ st.scc.idx y → Reach (Calls plan) g y
  black : ∀ x, st.scc.Vis x → x ∉ gs → ∀ y, Calls plan x y → st.scc.Vis y
  done : ∀ x, G x → st.scc.Vis x → x ∉ st.scc.stack →
    ∀ y, Calls plan x y → st.scc.Vis y ∧ y ∉ st.scc.stack
  sound : ∀ x S, st.found x = some S → ∀ c ∈ S, CodesOf plan x c
  complete : ∀ x, G x → st.scc.Vis x → x ∉ st.scc.stack →
    ∃ S, st.found x = some S ∧ ∀ c, CodesOf plan x c → c ∈ S
  raw : ∀ x, G x → x ∈ st.scc.stack → x ∉ gs →
    ∃ S, st.found x = some S ∧ ∀ c, (plan x).Yields (Outer plan x) c → c ∈ S
  found_vis : ∀ x S, st.found x = some S → st.scc.Vis x ∧ x ∉ gs
  has : ∀ x, st.scc.Vis x → x ∉ gs → ∃ S, st.found x = some S
  own : ∀ x S, st.found x = some S → ∀ c, (plan x).Yields (fun _ _ => False) c → c ∈ S
  comps_iff : ∀ x, x ∈ st.comps.flatten ↔ st.scc.Vis x ∧ x ∉ st.scc.stack
  comps_nodup : st.comps.flatten.Nodup
  comps_ne : ∀ C ∈ st.comps, C ≠ []
  comps_mutual : ∀ C ∈ st.comps, ∀ x ∈ C, ∀ y ∈ C, Mutual (Calls plan) x y
  comps_scc : ∀ C ∈ st.comps, ∀ x ∈ C, G x → ∀ y, Mutual (Calls plan) x y → y ∈ C
  comps_order : ∀ pre C post, st.comps = pre ++ C :: post →
    ∀ x ∈ C, G x → ∀ y, Reach (Calls plan) x y → y ∈ C ∨ y ∈ pre.flatten
  diags_vis : ∀ x, st.scc.Vis x → x ∉ gs → st.diagsOf x = (plan x).reports
  diags_new : ∀ x, ¬ st.scc.Vis x → st.diagsOf x = []

variable {plan : N → Plan N D} {G : N → Prop}

theorem inv_startG : InvG G plan [] (start : Search N D) := by
  constructor <;> simp [start, Scc.start, Scc.On, Scc.Vis, diagsOf]

/-- The invariant only depends on the views of the SCC state. -/
theorem InvG.congr {gs : List N} {st st' : Search N D} (h : InvG G plan gs st)
    (hvis : ∀ x, st'.scc.Vis x ↔ st.scc.Vis x) (hon : ∀ x, st'.scc.On x ↔ st.scc.On x)
    (hidx : ∀ x, st'.scc.idx x = st.scc.idx x) (hstack : st'.scc.stack = st.scc.stack)
    (hindex : st'.scc.index = st.scc.index) (hfound : st'.found = st.found)
    (hdiags : st'.diags = st.diags) (hcomps : st'.comps = st.comps) : InvG G plan gs st' := by
  have hd : ∀ x, st'.diagsOf x = st.diagsOf x := by intro x; simp [diagsOf, hdiags]
  constructor
  · intro x; rw [hstack, hon]; exact h.stack_iff x
  · rw [hstack]; simp only [hidx]; exact h.sorted
  · intro x hx; rw [hidx, hindex]; exact h.idx_lt x ((hvis x).1 hx)
  · rw [hstack]; exact h.gray_on
  · rw [hstack]; exact h.toTop
  · rw [hstack]; simp only [hidx]; exact h.desc
  · simp only [hvis]; exact h.black
  · simp only [hvis, hstack]; exact h.done
  · rw [hfound]; exact h.sound
  · simp only [hvis, hstack, hfound]; exact h.complete
  · simp only [hstack, hfound]; exact h.raw
  · simp only [hvis, hfound]; exact h.found_vis
  · simp only [hvis, hfound]; exact h.has
  · rw [hfound]; exact h.own
  · simp only [hvis, hstack, hcomps]; exact h.comps_iff
  · rw [hcomps]; exact h.comps_nodup
  · rw [hcomps]; exact h.comps_ne
  · rw [hcomps]; exact h.comps_mutual
  · rw [hcomps]; exact h.comps_scc
  · rw [hcomps]; exact h.comps_order
  · simp only [hvis, hd]; exact h.diags_vis
  · simp only [hvis, hd]; exact h.diags_new

theorem InvG.lowered {gs : List N} {st : Search N D} (h : InvG G plan gs st) {scc' : Scc N} {f : N}
    {k : Nat} (hl : Scc.Lowered st.scc scc' f k) : InvG G plan gs { st with scc := scc' } :=
  h.congr hl.vis hl.on hl.idx hl.stack hl.index rfl rfl rfl

theorem InvG.stack_vis {gs : List N} {st : Search N D} (h : InvG G plan gs st) {x : N}
    (hx : x ∈ st.scc.stack) : st.scc.Vis x := ((h.stack_iff x).1 hx).vis

/-- What a (partial) search leaves unchanged. -/
structure Frame (st st' : Search N D) : Prop where
  vis : ∀ x, st.scc.Vis x → st'.scc.Vis x
  idx : ∀ x, st.scc.Vis x → st'.scc.idx x = st.scc.idx x
  index : st.scc.index ≤ st'.scc.index
  comps : ∃ cs, st'.comps = st.comps ++ cs

theorem Frame.refl (st : Search N D) : Frame st st :=
  ⟨fun _ h => h, fun _ _ => rfl, Nat.le_refl _, [], by simp⟩

theorem Frame.trans {a b c : Search N D} (h : Frame a b) (h' : Frame b c) : Frame a c := by
  obtain ⟨cs, hcs⟩ := h.comps
  obtain ⟨cs', hcs'⟩ := h'.comps
  exact ⟨fun x hx => h'.vis x (h.vis x hx),
    fun x hx => (h'.idx x (h.vis x hx)).trans (h.idx x hx),
    Nat.le_trans h.index h'.index, cs ++ cs', by rw [hcs', hcs, List.append_assoc]⟩

/-- After a complete search from `f`. -/
structure PostFG (G : N → Prop) (plan : N → Plan N D) (gs : List N) (f : N) (st : Search N D)
    (R : CodeSet) (st' : Search N D) : Prop where
  inv : InvG G plan gs st'
  frame : Frame st st'
  same : ∀ x, st.scc.Vis x → st'.scc.vertices x = st.scc.vertices x
  diags : ∀ x, st.scc.Vis x → st'.diagsOf x = st.diagsOf x
  visf : st'.scc.Vis f
  reach : ∀ x, st'.scc.Vis x → st.scc.Vis x ∨ Reach (Calls plan) f x
  lowf : (st'.scc.stack = st.scc.stack ∧ st.scc.index ≤ st'.scc.low f) ∨
    (f ∈ st'.scc.stack ∧
     ∃ ext, st'.scc.stack = ext ++ st.scc.stack ∧
      (∃ z ∈ st.scc.stack, st'.scc.low f = st.scc.idx z ∧ Reach (Calls plan) f z) ∧
      (∀ x ∈ ext, G x → ∀ z ∈ st.scc.stack, Calls plan x z → st'.scc.low f ≤ st.scc.idx z))
  res : st'.found f = some R
  sound : ∀ c ∈ R, CodesOf plan f c
  complete : G f → f ∉ st'.scc.stack → ∀ c, CodesOf plan f c → c ∈ R

/-- While looking at `f`, whose visit started on stack `base`. -/
structure LocG (G : N → Prop) (plan : N → Plan N D) (f : N) (base : List N) (st : Search N D) : Prop where
  ext : ∃ ext, st.scc.stack = ext ++ f :: base ∧
    ∀ x ∈ ext, G x → ∀ z ∈ base, Calls plan x z → st.scc.low f ≤ st.scc.idx z
  low : ∃ z ∈ st.scc.stack, st.scc.low f = st.scc.idx z ∧ Reach (Calls plan) f z
  low_le : st.scc.low f ≤ st.scc.idx f

/-- After executing part of the plan of `f`. -/
structure PostEG (G : N → Prop) (plan : N → Plan N D) (gs : List N) (f : N) (base : List N) (p : Plan N D)
    (st : Search N D) (R : CodeSet) (st' : Search N D) : Prop where
  inv : InvG G plan (f :: gs) st'
  loc : LocG G plan f base st'
  frame : Frame st st'
  same : ∀ x, st.scc.Vis x → x ≠ f → st'.scc.vertices x = st.scc.vertices x
  low_mono : st'.scc.low f ≤ st.scc.low f
  diags : ∀ x, st.scc.Vis x → x ≠ f → st'.diagsOf x = st.diagsOf x
  diagsf : st'.diagsOf f = st.diagsOf f ++ p.reports
  reach : ∀ x, st'.scc.Vis x → st.scc.Vis x ∨ Reach (Calls plan) f x
  targets : ∀ z ∈ p.targets, st'.scc.Vis z ∧ (z ∈ base → st'.scc.low f ≤ st'.scc.idx z)
  sound : ∀ c ∈ R, p.Yields (CodesOf plan) c
  own : ∀ c, p.Yields (fun _ _ => False) c → c ∈ R
  complete : G f → ∀ c, p.Yields (Outer plan f) c → c ∈ R

/-- The ways a search may stop abnormally. -/
def Bad (plan : N → Plan N D) (e : Stop) : Prop :=
  e = .outOfFuel ∨ (e = .revisit ∧ ∃ f, (plan f).visits ≠ []) ∨
    (∃ loc, e = .panic loc ∧ ∃ f, (plan f).panics = true)

/-- `post` holds of a normal result, `Bad` of an abnormal one. -/
def Holds (plan : N → Plan N D) {α : Type} (r : Except Stop α) (post : α → Prop) : Prop :=
  match r with
  | .ok a => post a
  | .error e => Bad plan e

theorem Holds.bind {α β : Type} {r : Except Stop α} {k : α → Except Stop β} {P : α → Prop}
    {Q : β → Prop} (h : Holds plan r P) (hk : ∀ a, P a → Holds plan (k a) Q) :
    Holds plan (r >>= k) Q := by
  cases r with
  | error e => exact h
  | ok a => exact hk a h

/-- The specification of the recursive call. -/
def RecSpecG (G : N → Prop) (plan : N → Plan N D)
    (recurse : N → Search N D → Except Stop (CodeSet × Search N D)) : Prop :=
  ∀ gs g st, InvG G plan gs st → ¬ st.scc.Vis g → (∀ h, gs.head? = some h → Calls plan h g) →
    Holds plan (recurse g st) (fun r => PostFG G plan gs g st r.1 r.2)

omit [DecidableEq N] in
theorem yields_outer_le {f : N} {p : Plan N D} {c : GoString}
    (h : p.Yields (Outer plan f) c) : p.Yields (CodesOf plan) c :=
  Plan.Yields.mono (fun _ _ h => h.2) _ _ h

/-! ## Executing a plan -/

/-- Executing a call whose target is known already. -/
theorem postE_known {gs : List N} {f g : N} {base : List N} {st : Search N D} {scc' : Scc N} {k : Nat}
    (hG : ∀ x y, G x → Calls plan x y → G y) (hE : Calls plan f g)
    (hinv : InvG G plan (f :: gs) st) (hloc : LocG G plan f base st)
    (hl : Scc.Lowered st.scc scc' f k)
    (hk : (∃ z ∈ st.scc.stack, k = st.scc.idx z ∧ Reach (Calls plan) f z) ∨ st.scc.low f ≤ k)
    (hg : st.scc.Vis g) (hbase : g ∈ base → k ≤ st.scc.idx g)
    (hstack : g ∈ st.scc.stack → Reach (Calls plan) g f) :
    PostEG G plan gs f base (.call g) st ((st.found g).getD []) { st with scc := scc' } := by
  have hlow : scc'.low f ≤ st.scc.low f := by rw [hl.low]; exact Nat.min_le_left _ _
  refine ⟨hinv.lowered hl, ?_, ?_, ?_, hlow, ?_, ?_, ?_, ?_, ?_, fun c h => h.elim, ?_⟩
  · obtain ⟨ext, hext, hedges⟩ := hloc.ext
    refine ⟨⟨ext, by simp [hl.stack, hext], ?_⟩, ?_, ?_⟩
    · intro x hx hGx z hz hc
      have := hedges x hx hGx z hz hc
      simp only [hl.idx]
      exact Nat.le_trans hlow this
    · simp only [hl.stack, hl.idx, hl.low]
      by_cases hle : st.scc.low f ≤ k
      · rw [Nat.min_eq_left hle]; exact hloc.low
      · rw [Nat.min_eq_right (by omega)]
        exact hk.resolve_right hle
    · simp only [hl.idx]; exact Nat.le_trans hlow hloc.low_le
  · exact ⟨fun x hx => (hl.vis x).2 hx, fun x _ => hl.idx x, by simp [hl.index], [], by simp⟩
  · intro x _ hx; exact hl.other x hx
  · intro x _ _; rfl
  · simp [Plan.reports, diagsOf]
  · intro x hx; exact .inl ((hl.vis x).1 hx)
  · intro z hz
    simp only [Plan.targets, List.mem_singleton] at hz
    subst hz
    refine ⟨(hl.vis _).2 hg, fun hb => ?_⟩
    simp only [hl.idx, hl.low]
    exact Nat.le_trans (Nat.min_le_right _ _) (hbase hb)
  · intro c hc
    cases hfg : st.found g with
    | none => simp [hfg] at hc
    | some S => exact hinv.sound g S hfg c (by simpa [hfg] using hc)
  · intro hGf c hc
    obtain ⟨hnr, hcode⟩ := (hc : Outer plan f g c)
    obtain ⟨S, hS, hall⟩ := hinv.complete g (hG f g hGf hE) hg (fun h => hnr (hstack h))
    simp [hS, hall c hcode]

/-- Executing a call or visit that recursed. -/
theorem postE_rec {gs : List N} {f g : N} {base : List N} {st st₂ : Search N D} {R : CodeSet}
    {scc' : Scc N} (hG : ∀ x y, G x → Calls plan x y → G y)
    (hinv : InvG G plan (f :: gs) st) (hloc : LocG G plan f base st)
    (hE : Calls plan f g) (hnew : ¬ st.scc.Vis g)
    (hp : PostFG G plan (f :: gs) g st R st₂)
    (hl : Scc.Lowered st₂.scc scc' f (st₂.scc.low g) ∨
      (scc' = st₂.scc ∧ (G f → ¬ Reach (Calls plan) g f)))
    {p : Plan N D} (hpt : p.targets = [g]) (hpr : p.reports = [])
    (hpy : ∀ ρ c, p.Yields ρ c ↔ ρ g c) :
    PostEG G plan gs f base p st R { st₂ with scc := scc' } := by
  have hfstack : f ∈ st.scc.stack := hinv.gray_on f (by simp)
  have hfvis : st.scc.Vis f := hinv.stack_vis hfstack
  have htop : ∀ x ∈ st.scc.stack, Reach (Calls plan) x f := by
    intro x hx
    obtain ⟨g', hg', hr⟩ := hinv.toTop x hx
    simp only [List.head?_cons, Option.some.injEq] at hg'
    subst hg'; exact hr
  have hlowsame : st₂.scc.low f = st.scc.low f := by simp [Scc.low, hp.same f hfvis]
  have hidxsame : ∀ x, st.scc.Vis x → st₂.scc.idx x = st.scc.idx x := hp.frame.idx
  have hidxf : st.scc.idx f < st.scc.index := hinv.idx_lt f hfvis
  -- views of the final state
  have hvis : ∀ x, scc'.Vis x ↔ st₂.scc.Vis x := by
    rcases hl with hl | ⟨rfl, _⟩
    · exact hl.vis
    · exact fun _ => Iff.rfl
  have hon : ∀ x, scc'.On x ↔ st₂.scc.On x := by
    rcases hl with hl | ⟨rfl, _⟩
    · exact hl.on
    · exact fun _ => Iff.rfl
  have hidx : ∀ x, scc'.idx x = st₂.scc.idx x := by
    rcases hl with hl | ⟨rfl, _⟩
    · exact hl.idx
    · exact fun _ => rfl
  have hstk : scc'.stack = st₂.scc.stack := by
    rcases hl with hl | ⟨rfl, _⟩
    · exact hl.stack
    · rfl
  have hindex : scc'.index = st₂.scc.index := by
    rcases hl with hl | ⟨rfl, _⟩
    · exact hl.index
    · rfl
  have hother : ∀ x, x ≠ f → scc'.vertices x = st₂.scc.vertices x := by
    rcases hl with hl | ⟨rfl, _⟩
    · exact hl.other
    · exact fun _ _ => rfl
  have hlowle : scc'.low f ≤ st.scc.low f := by
    rcases hl with hl | ⟨rfl, _⟩
    · rw [hl.low, hlowsame]; exact Nat.min_le_left _ _
    · omega
  obtain ⟨ext, hext, hedges⟩ := hloc.ext
  have hbase_stack : ∀ z ∈ base, z ∈ st.scc.stack := by intro z hz; simp [hext, hz]
  have hloc' : LocG G plan f base { st₂ with scc := scc' } := by
    rcases hp.lowf with ⟨hst, hlg⟩ | ⟨hgon, ext', hst, ⟨z, hz, hzlow, hzr⟩, hed'⟩
    · have hlow' : scc'.low f = st.scc.low f := by
        rcases hl with hl | ⟨rfl, _⟩
        · rw [hl.low, hlowsame]
          have := hloc.low_le
          omega
        · exact hlowsame
      refine ⟨⟨ext, by simp [hstk, hst, hext], ?_⟩, ?_, ?_⟩
      · intro x hx hGx z hz hc
        simp only [hidx, hlow', hidxsame z (hinv.stack_vis (hbase_stack z hz))]
        exact hedges x hx hGx z hz hc
      · obtain ⟨z, hz, hz1, hz2⟩ := hloc.low
        refine ⟨z, by simp only [hstk, hst]; exact hz, ?_, hz2⟩
        simp only [hlow', hidx, hidxsame z (hinv.stack_vis hz), hz1]
      · simp only [hlow', hidx, hidxsame f hfvis]; exact hloc.low_le
    · rcases hl with hl | ⟨rfl, hnr⟩
      · refine ⟨⟨ext' ++ ext, by simp [hstk, hst, hext], ?_⟩, ?_, ?_⟩
        · intro x hx hGx y hy hc
          simp only [hidx, hl.low, hlowsame, hidxsame y (hinv.stack_vis (hbase_stack y hy))]
          rcases List.mem_append.1 hx with hx | hx
          · exact Nat.le_trans (Nat.min_le_right _ _) (hed' x hx hGx y (hbase_stack y hy) hc)
          · exact Nat.le_trans (Nat.min_le_left _ _) (hedges x hx hGx y hy hc)
        · simp only [hl.low, hlowsame, hidx, hstk, hst]
          by_cases hle : st.scc.low f ≤ st₂.scc.low g
          · obtain ⟨y, hy, hy1, hy2⟩ := hloc.low
            refine ⟨y, by simp [hy], ?_, hy2⟩
            rw [Nat.min_eq_left hle, hidxsame y (hinv.stack_vis hy), hy1]
          · refine ⟨z, by simp [hz], ?_, .step hE hzr⟩
            rw [Nat.min_eq_right (by omega), hidxsame z (hinv.stack_vis hz), hzlow]
        · simp only [hl.low, hlowsame, hidx, hidxsame f hfvis]
          exact Nat.le_trans (Nat.min_le_left _ _) hloc.low_le
      · refine ⟨⟨ext' ++ ext, by simp [hst, hext], ?_⟩, ?_, ?_⟩
        · intro x hx hGx y hy hc
          rcases List.mem_append.1 hx with hx | hx
          · obtain ⟨g', hg', hr⟩ := hp.inv.toTop x (by rw [hst]; simp [hx])
            simp only [List.head?_cons, Option.some.injEq] at hg'
            subst hg'
            exact absurd (hzr.trans (htop z hz)) (hnr (hr.closed hG hGx))
          · simp only [hlowsame, hidxsame y (hinv.stack_vis (hbase_stack y hy))]
            exact hedges x hx hGx y hy hc
        · obtain ⟨y, hy, hy1, hy2⟩ := hloc.low
          refine ⟨y, by simp [hst, hy], ?_, hy2⟩
          simp only [hlowsame, hidxsame y (hinv.stack_vis hy), hy1]
        · simp only [hlowsame, hidxsame f hfvis]; exact hloc.low_le
  refine ⟨?_, hloc', ?_, ?_, hlowle, ?_, ?_, ?_, ?_, ?_, fun c h => ((hpy _ _).1 h).elim, ?_⟩
  · exact hp.inv.congr hvis hon hidx hstk hindex rfl rfl rfl
  · refine ⟨fun x hx => (hvis x).2 (hp.frame.vis x hx), fun x hx => ?_, ?_, hp.frame.comps⟩
    · simp only [hidx]; exact hidxsame x hx
    · simp only [hindex]; exact hp.frame.index
  · intro x hx hxf
    simp only [hother x hxf]; exact hp.same x hx
  · intro x hx _; exact hp.diags x hx
  · rw [hpr, List.append_nil]; exact hp.diags f hfvis
  · intro x hx
    rcases hp.reach x ((hvis x).1 hx) with h | h
    · exact .inl h
    · exact .inr (.step hE h)
  · intro z hz
    rw [hpt, List.mem_singleton] at hz
    subst hz
    refine ⟨(hvis _).2 hp.visf, fun hb => ?_⟩
    exact absurd (hinv.stack_vis (hbase_stack _ hb)) hnew
  · intro c hc; exact (hpy _ _).2 (hp.sound c hc)
  · intro hGf c hc
    obtain ⟨hnr, hcode⟩ := (hpy _ _).1 hc
    refine hp.complete (hG f g hGf hE) ?_ c hcode
    intro hgs
    obtain ⟨g', hg', hr⟩ := hp.inv.toTop g hgs
    simp only [List.head?_cons, Option.some.injEq] at hg'
    subst hg'
    exact hnr hr


theorem exec_spec {recurse : N → Search N D → Except Stop (CodeSet × Search N D)}
    (hrec : RecSpecG G plan recurse)
    (hrevisit : ∀ g st, st.scc.Vis g → ∀ f, (plan f).visits ≠ [] →
      ∀ Q, Holds plan (recurse g st) Q)
    {gs : List N} {f : N} {base : List N}
    (hG : ∀ x y, G x → Calls plan x y → G y)
    (hlit : G f → ∀ z ∈ (plan f).visits, ¬ Reach (Calls plan) z f) :
    ∀ (p : Plan N D) (st : Search N D), (∀ z ∈ p.targets, Calls plan f z) →
      (∀ z ∈ p.visits, z ∈ (plan f).visits) → (p.panics = true → (plan f).panics = true) →
      InvG G plan (f :: gs) st → LocG G plan f base st →
      Holds plan (exec recurse f p st) (fun r => PostEG G plan gs f base p st r.1 r.2) := by
  intro p
  induction p with
  | codes s =>
    intro st _ _ _ hinv hloc
    refine ⟨hinv, hloc, Frame.refl st, fun _ _ _ => rfl, Nat.le_refl _, fun _ _ _ => rfl, ?_,
      fun _ h => .inl h, ?_, fun c h => h, fun c h => h, fun _ c h => h⟩
    · simp [Plan.reports]
    · simp [Plan.targets]
  | report d =>
    intro st _ _ _ hinv hloc
    have hfv : st.scc.Vis f := hinv.stack_vis (hinv.gray_on f (by simp))
    have hd : ∀ x, x ≠ f →
        ({ st with diags := st.diags ++ [(f, d)] } : Search N D).diagsOf x = st.diagsOf x := by
      intro x hx
      simp [diagsOf, List.filterMap_append, Ne.symm hx]
    refine ⟨?_, ⟨hloc.ext, hloc.low, hloc.low_le⟩,
      ⟨fun _ h => h, fun _ _ => rfl, Nat.le_refl _, [], by simp⟩, fun _ _ _ => rfl,
      Nat.le_refl _, fun x _ hx => hd x hx, ?_, fun _ h => .inl h, ?_, ?_, fun c h => h.elim, ?_⟩
    · refine ⟨hinv.stack_iff, hinv.sorted, hinv.idx_lt, hinv.gray_on, hinv.toTop, hinv.desc,
        hinv.black, hinv.done, hinv.sound, hinv.complete, hinv.raw, hinv.found_vis, hinv.has, hinv.own, hinv.comps_iff,
        hinv.comps_nodup, hinv.comps_ne, hinv.comps_mutual, hinv.comps_scc, hinv.comps_order,
        ?_, ?_⟩
      · intro x hx hg
        rw [hd x (fun e => hg (by simp [e]))]
        exact hinv.diags_vis x hx hg
      · intro x hx
        rw [hd x (fun e => hx (e ▸ hfv))]
        exact hinv.diags_new x hx
    · simp [diagsOf, List.filterMap_append, Plan.reports]
    · simp [Plan.targets]
    · simp
    · intro _ c hc; exact absurd hc (by simp [Plan.Yields])
  | panic loc =>
    intro st _ _ hpan _ _
    exact .inr (.inr ⟨loc, rfl, f, hpan rfl⟩)
  | call g =>
    intro st htgt _ _ hinv hloc
    have hE : Calls plan f g := htgt g (by simp [Plan.targets])
    have hfstack : f ∈ st.scc.stack := hinv.gray_on f (by simp)
    obtain ⟨vf, hvf, hvfon⟩ := (hinv.stack_iff f).1 hfstack
    have htop : ∀ x ∈ st.scc.stack, Reach (Calls plan) x f := by
      intro x hx
      obtain ⟨g', hg', hr⟩ := hinv.toTop x hx
      simp only [List.head?_cons, Option.some.injEq] at hg'
      subst hg'; exact hr
    unfold exec Scc.handleEdge
    cases hg : st.scc.vertices g with
    | none =>
      have hnv : ¬ st.scc.Vis g := by simp [Scc.Vis, hg]
      have h1 := hrec (f :: gs) g st hinv hnv (by intro h hh; simp at hh; subst hh; exact hE)
      refine Holds.bind (P := fun r => r = (true, st.scc)) rfl ?_
      rintro ⟨b, scc⟩ hb
      cases hb
      refine Holds.bind h1 ?_
      rintro ⟨R, st₂⟩ hp
      have hfv₂ : st₂.scc.vertices f = some vf := by
        rw [hp.same f (by simp [Scc.Vis, hvf]), hvf]
      have hgv : ∃ vg, st₂.scc.vertices g = some vg := by
        have := hp.visf; simp only [Scc.Vis] at this
        exact Option.ne_none_iff_exists'.1 this
      obtain ⟨vg, hvg⟩ := hgv
      have hlow := Scc.lowered_set hfv₂ (st₂.scc.low g)
      have hlg : st₂.scc.low g = vg.lowindex := by simp [Scc.low, hvg]
      refine Holds.bind (P := fun s => Scc.Lowered st₂.scc s f (st₂.scc.low g)) ?_ ?_
      · simp only [Scc.afterRecurse, hfv₂, hvg, Holds]
        rw [hlg] at hlow ⊢
        exact hlow
      · intro scc' hl
        exact postE_rec hG hinv hloc hE hnv hp (.inl hl) rfl rfl (fun _ _ => Iff.rfl)
    | some t =>
      by_cases ht : t.isOnStack = true
      · have hgstack : g ∈ st.scc.stack := (hinv.stack_iff g).2 ⟨t, hg, ht⟩
        have hidx : st.scc.idx g = t.index := by simp [Scc.idx, hg]
        simp only [ht, hvf, if_true]
        have hl := Scc.lowered_set hvf t.index
        exact postE_known hG hE hinv hloc hl (.inl ⟨g, hgstack, hidx.symm, Reach.edge hE⟩)
          (by simp [Scc.Vis, hg]) (fun _ => by omega) (htop g)
      · have hgstack : g ∉ st.scc.stack := by
          intro h
          obtain ⟨v, hv, hon⟩ := (hinv.stack_iff g).1 h
          rw [hg] at hv; cases hv; exact ht hon
        simp only [ht]
        have hl : Scc.Lowered st.scc st.scc f (st.scc.low f) :=
          ⟨fun _ _ => rfl, fun _ => Iff.rfl, fun _ => Iff.rfl, fun _ => rfl, by simp, rfl, rfl⟩
        refine postE_known hG hE hinv hloc hl (.inr (Nat.le_refl _)) (by simp [Scc.Vis, hg]) ?_
          (fun h => absurd h hgstack)
        intro hb
        obtain ⟨ext, hext, _⟩ := hloc.ext
        exact absurd (by simp [hext, hb]) hgstack
  | visit g =>
    intro st htgt hvis _ hinv hloc
    have hE : Calls plan f g := htgt g (by simp [Plan.targets])
    have hgv : g ∈ (plan f).visits := hvis g (by simp [Plan.visits])
    unfold exec
    by_cases hg : st.scc.Vis g
    · exact hrevisit g st hg f (List.ne_nil_of_mem hgv) _
    · have h1 := hrec (f :: gs) g st hinv hg (by intro h hh; simp at hh; subst hh; exact hE)
      cases hr : recurse g st with
      | error e => rw [hr] at h1; exact h1
      | ok r =>
        rw [hr] at h1
        exact postE_rec hG hinv hloc hE hg h1 (.inr ⟨rfl, fun hGf => hlit hGf g hgv⟩) rfl rfl (fun _ _ => Iff.rfl)
  | union a b iha ihb =>
    intro st htgt hvis hpan hinv hloc
    have h1 := iha st (fun z hz => htgt z (by simp [Plan.targets, hz]))
      (fun z hz => hvis z (by simp [Plan.visits, hz])) (fun h => hpan (by simp [Plan.panics, h]))
      hinv hloc
    unfold exec
    refine Holds.bind h1 ?_
    rintro ⟨x, st₁⟩ p₁
    have h2 := ihb st₁ (fun z hz => htgt z (by simp [Plan.targets, hz]))
      (fun z hz => hvis z (by simp [Plan.visits, hz])) (fun h => hpan (by simp [Plan.panics, h]))
      p₁.inv p₁.loc
    refine Holds.bind h2 ?_
    rintro ⟨y, st₂⟩ p₂
    dsimp only at p₁ p₂
    refine ⟨p₂.inv, p₂.loc, p₁.frame.trans p₂.frame, ?_, Nat.le_trans p₂.low_mono p₁.low_mono,
      ?_, ?_, ?_, ?_, ?_, ?_, ?_⟩
    · intro z hz hzf
      rw [p₂.same z (p₁.frame.vis z hz) hzf, p₁.same z hz hzf]
    · intro z hz hzf
      rw [p₂.diags z (p₁.frame.vis z hz) hzf, p₁.diags z hz hzf]
    · rw [p₂.diagsf, p₁.diagsf, List.append_assoc]; rfl
    · intro z hz
      rcases p₂.reach z hz with h | h
      · exact p₁.reach z h
      · exact .inr h
    · intro z hz
      simp only [Plan.targets, List.mem_append] at hz
      rcases hz with hz | hz
      · obtain ⟨h1, h2⟩ := p₁.targets z hz
        refine ⟨p₂.frame.vis z h1, fun hb => ?_⟩
        rw [p₂.frame.idx z h1]
        exact Nat.le_trans p₂.low_mono (h2 hb)
      · exact p₂.targets z hz
    · intro c hc
      rcases CodeSet.mem_union.1 hc with h | h
      · exact .inl (p₁.sound c h)
      · exact .inr (p₂.sound c h)
    · intro c hc
      exact CodeSet.mem_union.2 (hc.imp (p₁.own c) (p₂.own c))
    · intro hGf c hc
      exact CodeSet.mem_union.2 (hc.imp (p₁.complete hGf c) (p₂.complete hGf c))
  | minus a s iha =>
    intro st htgt hvis hpan hinv hloc
    have h1 := iha st htgt hvis hpan hinv hloc
    unfold exec
    refine Holds.bind h1 ?_
    rintro ⟨x, st₁⟩ p₁
    refine ⟨p₁.inv, p₁.loc, p₁.frame, p₁.same, p₁.low_mono, p₁.diags, p₁.diagsf, p₁.reach,
      p₁.targets, ?_, ?_, ?_⟩
    · intro c hc
      obtain ⟨h, h'⟩ := CodeSet.mem_diff.1 hc
      exact ⟨p₁.sound c h, h'⟩
    · intro c hc
      exact CodeSet.mem_diff.2 ⟨p₁.own c hc.1, hc.2⟩
    · intro hGf c hc
      exact CodeSet.mem_diff.2 ⟨p₁.complete hGf c hc.1, hc.2⟩


/-! ## Visiting a function -/

theorem visit_inv {gs : List N} {st : Search N D} {f : N} (h : InvG G plan gs st)
    (hf : ¬ st.scc.Vis f) (hE : ∀ h, gs.head? = some h → Calls plan h f) :
    ∃ scc, st.scc.visit f = .ok scc ∧ InvG G plan (f :: gs) { st with scc := scc } ∧
      LocG G plan f st.scc.stack { st with scc := scc } ∧
      Frame st { st with scc := scc } ∧
      (∀ x, st.scc.Vis x → scc.vertices x = st.scc.vertices x) ∧
      (∀ x, scc.Vis x ↔ x = f ∨ st.scc.Vis x) ∧ scc.idx f = st.scc.index := by
  have hnone : st.scc.vertices f = none := by
    simpa [Scc.Vis] using hf
  refine ⟨_, by simp only [Scc.visit, hnone]; rfl, ?_⟩
  let scc : Scc N := { (st.scc.setVertex f ⟨st.scc.index, st.scc.index, true⟩) with
          stack := f :: st.scc.stack, index := st.scc.index + 1 }
  show InvG G plan (f :: gs) { st with scc := scc } ∧ LocG G plan f st.scc.stack { st with scc := scc } ∧
      Frame st { st with scc := scc } ∧
      (∀ x, st.scc.Vis x → scc.vertices x = st.scc.vertices x) ∧
      (∀ x, scc.Vis x ↔ x = f ∨ st.scc.Vis x) ∧ scc.idx f = st.scc.index
  have hvs : ∀ x, st.scc.Vis x → x ≠ f := fun x hx e => hf (e ▸ hx)
  have hvf : scc.vertices f = some ⟨st.scc.index, st.scc.index, true⟩ := by
    simp [scc, Scc.setVertex]
  have hvo : ∀ x, x ≠ f → scc.vertices x = st.scc.vertices x := by
    intro x hx; simp [scc, Scc.setVertex, hx]
  have hvis : ∀ x, scc.Vis x ↔ x = f ∨ st.scc.Vis x := by
    intro x
    by_cases hx : x = f
    · subst hx; simp [Scc.Vis, hvf]
    · simp [Scc.Vis, hvo x hx, hx]
  have hidxf : scc.idx f = st.scc.index := by simp [Scc.idx, hvf]
  have hlowf : scc.low f = st.scc.index := by simp [Scc.low, hvf]
  have hidx : ∀ x, x ≠ f → scc.idx x = st.scc.idx x := by intro x hx; simp [Scc.idx, hvo x hx]
  have hon : ∀ x, scc.On x ↔ x = f ∨ st.scc.On x := by
    intro x
    by_cases hx : x = f
    · subst hx; simp [Scc.On, hvf]
    · simp [Scc.On, hvo x hx, hx]
  have hst : scc.stack = f :: st.scc.stack := rfl
  have hsf : ∀ x ∈ st.scc.stack, x ≠ f := fun x hx => hvs x (h.stack_vis hx)
  have hreachf : ∀ x ∈ st.scc.stack, Reach (Calls plan) x f := by
    intro x hx
    obtain ⟨g, hg, hr⟩ := h.toTop x hx
    exact hr.snoc (hE g hg)
  have hd : ∀ x, ({ st with scc := scc } : Search N D).diagsOf x = st.diagsOf x := fun _ => rfl
  refine ⟨⟨?_, ?_, ?_, ?_, ?_, ?_, ?_, ?_, ?_, ?_, ?_, ?_, ?_, ?_, ?_, ?_, ?_, ?_, ?_, ?_, ?_, ?_⟩,
    ⟨?_, ?_, ?_⟩, ⟨?_, ?_, ?_, ?_⟩, ?_, hvis, hidxf⟩
  · intro x
    simp only [hst, List.mem_cons, hon, h.stack_iff]
  · simp only [hst, List.pairwise_cons]
    refine ⟨fun y hy => ?_, h.sorted.imp_of_mem ?_⟩
    · rw [hidxf, hidx y (hsf y hy)]; exact h.idx_lt y (h.stack_vis hy)
    · intro a b ha hb hab
      rw [hidx a (hsf a ha), hidx b (hsf b hb)]; exact hab
  · intro x hx
    show scc.idx x < st.scc.index + 1
    rcases (hvis x).1 hx with rfl | hx
    · omega
    · rw [hidx x (hvs x hx)]; have := h.idx_lt x hx; omega
  · intro g hg
    simp only [hst, List.mem_cons]
    rcases List.mem_cons.1 hg with rfl | hg
    · exact .inl rfl
    · exact .inr (h.gray_on g hg)
  · intro x hx
    refine ⟨f, rfl, ?_⟩
    rcases List.mem_cons.1 (hst ▸ hx) with rfl | hx
    · exact .refl _
    · exact hreachf x hx
  · intro g hg y hy hle
    dsimp only at hle
    rcases List.mem_cons.1 (hst ▸ hy) with rfl | hy
    · rcases List.mem_cons.1 hg with rfl | hg
      · exact .refl _
      · exact hreachf g (h.gray_on g hg)
    · rename_i hy'
      clear hy'
      rcases List.mem_cons.1 hg with hgf | hg
      · have := h.idx_lt y (h.stack_vis hy)
        rw [hgf, hidxf, hidx y (hsf y hy)] at hle
        omega
      · rw [hidx g (hsf g (h.gray_on g hg)), hidx y (hsf y hy)] at hle
        exact h.desc g hg y hy hle
  · intro x hx hxg y hxy
    have hxf : x ≠ f := fun e => hxg (by simp [e])
    rcases (hvis x).1 hx with e | hx
    · exact absurd e hxf
    · exact (hvis y).2 (.inr (h.black x hx (fun hm => hxg (by simp [hm])) y hxy))
  · intro x hGx hx hxs y hxy
    simp only [hst, List.mem_cons, not_or] at hxs
    rcases (hvis x).1 hx with e | hx
    · exact absurd e hxs.1
    · obtain ⟨h1, h2⟩ := h.done x hGx hx hxs.2 y hxy
      refine ⟨(hvis y).2 (.inr h1), ?_⟩
      simp only [hst, List.mem_cons, not_or]
      exact ⟨hvs y h1, h2⟩
  · exact h.sound
  · intro x hGx hx hxs
    simp only [hst, List.mem_cons, not_or] at hxs
    rcases (hvis x).1 hx with e | hx
    · exact absurd e hxs.1
    · exact h.complete x hGx hx hxs.2
  · intro x hGx hx hxg
    simp only [List.mem_cons, not_or] at hxg
    rcases List.mem_cons.1 (hst ▸ hx) with e | hx
    · exact absurd e hxg.1
    · exact h.raw x hGx hx hxg.2
  · intro x S hS
    obtain ⟨h1, h2⟩ := h.found_vis x S hS
    refine ⟨(hvis x).2 (.inr h1), ?_⟩
    simp only [List.mem_cons, not_or]
    exact ⟨hvs x h1, h2⟩
  · intro x hx hxg
    simp only [List.mem_cons, not_or] at hxg
    exact h.has x (((hvis x).1 hx).resolve_left hxg.1) hxg.2
  · exact h.own
  · intro x
    show x ∈ st.comps.flatten ↔ scc.Vis x ∧ x ∉ scc.stack
    rw [h.comps_iff, hvis, hst]
    simp only [List.mem_cons, not_or]
    constructor
    · rintro ⟨h1, h2⟩; exact ⟨.inr h1, hvs x h1, h2⟩
    · rintro ⟨h1 | h1, h2, h3⟩
      · exact absurd h1 h2
      · exact ⟨h1, h3⟩
  · exact h.comps_nodup
  · exact h.comps_ne
  · exact h.comps_mutual
  · exact h.comps_scc
  · exact h.comps_order
  · intro x hx hxg
    simp only [List.mem_cons, not_or] at hxg
    rw [hd]
    exact h.diags_vis x (((hvis x).1 hx).resolve_left hxg.1) hxg.2
  · intro x hx
    rw [hd]
    exact h.diags_new x (fun h' => hx ((hvis x).2 (.inr h')))
  · exact ⟨[], by simp [hst], by simp⟩
  · exact ⟨f, by simp [hst], by simp [hidxf, hlowf], .refl _⟩
  · simp [hidxf, hlowf]
  · intro x hx; exact (hvis x).2 (.inr hx)
  · intro x hx; exact hidx x (hvs x hx)
  · show st.scc.index ≤ st.scc.index + 1; omega
  · exact ⟨[], by simp⟩
  · intro x hx; exact hvo x (hvs x hx)

theorem unify_found (st : Search N D) (C : List N) (x : N) :
    (st.unify C).2.found x = if x ∈ C then some (st.unify C).1 else st.found x := by
  unfold unify
  generalize C.foldl (fun r f => CodeSet.union r ((st.found f).getD [])) [] = R
  suffices h : ∀ (C : List N) (st : Search N D),
      (C.foldl (fun st f => st.setFound f R) st).found x = if x ∈ C then some R else st.found x from
    h C st
  intro C
  induction C with
  | nil => simp
  | cons a C ih =>
    intro st
    rw [List.foldl_cons, ih]
    by_cases hx : x ∈ C
    · simp [hx]
    · by_cases ha : x = a <;> simp [hx, ha, setFound]

theorem unify_scc (st : Search N D) (C : List N) :
    (st.unify C).2.scc = st.scc ∧ (st.unify C).2.diags = st.diags ∧ (st.unify C).2.comps = st.comps := by
  unfold unify
  generalize C.foldl (fun r f => CodeSet.union r ((st.found f).getD [])) [] = R
  dsimp only
  suffices h : ∀ (C : List N) (st : Search N D),
      (C.foldl (fun st f => st.setFound f R) st).scc = st.scc ∧
      (C.foldl (fun st f => st.setFound f R) st).diags = st.diags ∧
      (C.foldl (fun st f => st.setFound f R) st).comps = st.comps from h C st
  intro C
  induction C with
  | nil => simp
  | cons a C ih =>
    intro st
    rw [List.foldl_cons]
    have := ih (st.setFound a R)
    exact this

theorem mem_unify (st : Search N D) (C : List N) (c : GoString) :
    c ∈ (st.unify C).1 ↔ ∃ f ∈ C, c ∈ (st.found f).getD [] := by
  unfold unify
  suffices h : ∀ (C : List N) (r : CodeSet),
      c ∈ C.foldl (fun r f => CodeSet.union r ((st.found f).getD [])) r ↔
        c ∈ r ∨ ∃ f ∈ C, c ∈ (st.found f).getD [] by simpa using h C []
  intro C
  induction C with
  | nil => simp
  | cons a C ih =>
    intro r
    rw [List.foldl_cons, ih]
    simp [or_assoc]

/-- The codes shared by a complete recursion cycle. -/
theorem component_complete {C : List N} {U : CodeSet}
    (hscc : ∀ x ∈ C, ∀ y, y ∈ C ↔ Mutual (Calls plan) x y)
    (hraw : ∀ x ∈ C, ∀ c, (plan x).Yields (Outer plan x) c → c ∈ U) :
    ∀ x ∈ C, ∀ c, CodesOf plan x c → c ∈ U := by
  intro x hx c hc
  let ρ : N → GoString → Prop := fun y c => (y ∈ C → c ∈ U) ∧ CodesOf plan y c
  have hmono : ∀ y c, ρ y c → CodesOf plan y c := fun _ _ h => h.2
  have hcons : Consistent plan ρ := by
    constructor
    · intro y d hy
      refine ⟨fun hyC => ?_, CodesOf.consistent.1 y d (Plan.Yields.mono hmono _ _ hy)⟩
      have key : ∀ p : Plan N D, (∀ z ∈ p.targets, Calls plan y z) → p.Yields ρ d →
          p.Yields (Outer plan y) d ∨ d ∈ U := by
        have hcall : ∀ z, Calls plan y z → ρ z d → Outer plan y z d ∨ d ∈ U := by
          intro z hz hρ
          by_cases hzC : z ∈ C
          · exact .inr (hρ.1 hzC)
          · refine .inl ⟨fun hr => hzC ?_, hρ.2⟩
            exact (hscc y hyC z).2 ⟨Reach.edge hz, hr⟩
        intro p
        induction p with
        | codes s => exact fun _ h => .inl h
        | report _ => exact fun _ h => .inl h
        | panic _ => exact fun _ h => .inl h
        | call g => exact fun ht h => hcall g (ht g (by simp [Plan.targets])) h
        | visit g => exact fun ht h => hcall g (ht g (by simp [Plan.targets])) h
        | union a b iha ihb =>
          intro ht h
          rcases h with h | h
          · exact (iha (fun z hz => ht z (by simp [Plan.targets, hz])) h).imp_left .inl
          · exact (ihb (fun z hz => ht z (by simp [Plan.targets, hz])) h).imp_left .inr
        | minus a s iha =>
          intro ht h
          exact (iha ht h.1).imp_left (fun h' => ⟨h', h.2⟩)
      rcases key (plan y) (fun z hz => hz) hy with h | h
      · exact hraw y hyC d h
      · exact h
    · intro y z d hm hz
      refine ⟨fun hyC => ?_, CodesOf.consistent.2 y z d hm hz.2⟩
      exact hz.1 ((hscc y hyC z).2 hm)
  exact (hc ρ hcons).1 hx


/-- Facts at the end of a visit, before `EndVisit`. -/
structure EndingG (G : N → Prop) (plan : N → Plan N D) (gs : List N) (f : N) (st : Search N D) (R : CodeSet)
    (st₂ : Search N D) : Prop where
  inv₀ : InvG G plan gs st
  new : ¬ st.scc.Vis f
  inv : InvG G plan (f :: gs) st₂
  loc : LocG G plan f st.scc.stack st₂
  frame : Frame st st₂
  same : ∀ x, st.scc.Vis x → st₂.scc.vertices x = st.scc.vertices x
  idxf : st₂.scc.idx f = st.scc.index
  diags : ∀ x, st.scc.Vis x → st₂.diagsOf x = st.diagsOf x
  diagsf : st₂.diagsOf f = (plan f).reports
  reach : ∀ x, st₂.scc.Vis x → st.scc.Vis x ∨ Reach (Calls plan) f x
  targets : ∀ z, Calls plan f z →
    st₂.scc.Vis z ∧ (z ∈ st.scc.stack → st₂.scc.low f ≤ st₂.scc.idx z)
  sound : ∀ c ∈ R, (plan f).Yields (CodesOf plan) c
  own : ∀ c, (plan f).Yields (fun _ _ => False) c → c ∈ R
  complete : G f → ∀ c, (plan f).Yields (Outer plan f) c → c ∈ R

theorem setFound_found (st : Search N D) (f x : N) (S : CodeSet) :
    (st.setFound f S).found x = if x = f then some S else st.found x := rfl

theorem setFound_diagsOf (st : Search N D) (f x : N) (S : CodeSet) :
    (st.setFound f S).diagsOf x = st.diagsOf x := rfl

/-- Storing the result of `f`. -/
theorem setFound_sound {gs : List N} {f : N} {st st₂ : Search N D} {R : CodeSet}
    (h : EndingG G plan gs f st R st₂) :
    ∀ x S, (st₂.setFound f R).found x = some S → ∀ c ∈ S, CodesOf plan x c := by
  intro x S hS c hc
  rw [setFound_found] at hS
  split at hS
  · rename_i e
    cases hS
    rw [e]
    exact CodesOf.consistent.1 f c (h.sound c hc)
  · exact h.inv.sound x S hS c hc

theorem setFound_own {gs : List N} {f : N} {st st₂ : Search N D} {R : CodeSet}
    (h : EndingG G plan gs f st R st₂) :
    ∀ x S, (st₂.setFound f R).found x = some S → ∀ c, (plan x).Yields (fun _ _ => False) c → c ∈ S := by
  intro x S hS c hc
  rw [setFound_found] at hS
  split at hS
  · rename_i e
    cases hS
    rw [e] at hc
    exact h.own c hc
  · exact h.inv.own x S hS c hc

theorem end_inner {gs : List N} {f : N} {st st₂ : Search N D} {R : CodeSet}
    (h : EndingG G plan gs f st R st₂) (hlow : st₂.scc.low f ≠ st₂.scc.idx f) :
    PostFG G plan gs f st R (st₂.setFound f R) := by
  obtain ⟨ext, hext, hedges⟩ := h.loc.ext
  have hlt : st₂.scc.low f < st₂.scc.idx f := by have := h.loc.low_le; omega
  have hsorted := h.inv.sorted
  rw [hext, List.pairwise_append] at hsorted
  obtain ⟨_, hsb, hcross⟩ := hsorted
  have hfidx : ∀ x ∈ ext, st₂.scc.idx f < st₂.scc.idx x := fun x hx => hcross x hx f (by simp)
  have hbidx : ∀ z ∈ st.scc.stack, st₂.scc.idx z < st₂.scc.idx f := (List.pairwise_cons.1 hsb).1
  have hfgs : f ∉ gs := fun hm => h.new (h.inv₀.stack_vis (h.inv₀.gray_on f hm))
  obtain ⟨z, hz, hz1, hz2⟩ := h.loc.low
  have hzb : z ∈ st.scc.stack := by
    rw [hext] at hz
    rcases List.mem_append.1 hz with hz | hz
    · have := hfidx z hz; omega
    · rcases List.mem_cons.1 hz with rfl | hz
      · omega
      · exact hz
  have hzi : st₂.scc.idx z = st.scc.idx z := h.frame.idx z (h.inv₀.stack_vis hzb)
  obtain ⟨g, hg, hgr⟩ := h.inv₀.toTop z hzb
  have htop : ∀ x ∈ st₂.scc.stack, Reach (Calls plan) x f := by
    intro x hx
    obtain ⟨g', hg', hr⟩ := h.inv.toTop x hx
    simp only [List.head?_cons, Option.some.injEq] at hg'
    subst hg'; exact hr
  refine ⟨⟨h.inv.stack_iff, h.inv.sorted, h.inv.idx_lt, ?_, ?_, ?_, ?_, h.inv.done,
    setFound_sound h, ?_, ?_, ?_, ?_, setFound_own h, h.inv.comps_iff, h.inv.comps_nodup, h.inv.comps_ne,
    h.inv.comps_mutual, h.inv.comps_scc, h.inv.comps_order, ?_, h.inv.diags_new⟩, ?_, h.same, h.diags, ?_, h.reach, ?_, ?_, ?_, ?_⟩
  · intro g hg; exact h.inv.gray_on g (by simp [hg])
  · intro x hx
    exact ⟨g, hg, ((htop x hx).trans hz2).trans hgr⟩
  · intro g hg; exact h.inv.desc g (by simp [hg])
  · intro x hx hxg y hxy
    by_cases hxf : x = f
    · subst hxf; exact (h.targets y hxy).1
    · exact h.inv.black x hx (by simp [hxf, hxg]) y hxy
  · intro x hGx hx hxs
    have hxf : x ≠ f := by
      rintro rfl
      exact hxs (h.inv.gray_on x (by simp))
    obtain ⟨S, hS, hall⟩ := h.inv.complete x hGx hx hxs
    exact ⟨S, by rw [setFound_found, if_neg hxf, hS], hall⟩
  · intro x hGx hx hxg
    by_cases hxf : x = f
    · subst hxf
      exact ⟨R, by rw [setFound_found, if_pos rfl], h.complete hGx⟩
    · obtain ⟨S, hS, hall⟩ := h.inv.raw x hGx hx (by simp [hxf, hxg])
      exact ⟨S, by rw [setFound_found, if_neg hxf, hS], hall⟩
  · intro x S hS
    rw [setFound_found] at hS
    split at hS
    · rename_i e
      subst e
      exact ⟨h.inv.stack_vis (h.inv.gray_on x (by simp)), hfgs⟩
    · obtain ⟨h1, h2⟩ := h.inv.found_vis x S hS
      exact ⟨h1, fun hm => h2 (by simp [hm])⟩
  · intro x hx hxg
    rw [setFound_found]
    by_cases hxf : x = f
    · exact ⟨R, by rw [if_pos hxf]⟩
    · rw [if_neg hxf]; exact h.inv.has x hx (by simp [hxf, hxg])
  · intro x hx hxg
    rw [setFound_diagsOf]
    by_cases hxf : x = f
    · subst hxf; exact h.diagsf
    · exact h.inv.diags_vis x hx (by simp [hxf, hxg])
  · exact ⟨h.frame.vis, h.frame.idx, h.frame.index, h.frame.comps⟩
  · exact h.inv.stack_vis (h.inv.gray_on f (by simp))
  · refine .inr ⟨h.inv.gray_on f (by simp), ext ++ [f], ?_, ⟨z, hzb, ?_, hz2⟩, ?_⟩
    · show st₂.scc.stack = _
      simp [hext]
    · show st₂.scc.low f = _
      rw [hz1, hzi]
    · intro x hx hGx w hw hc
      show st₂.scc.low f ≤ _
      rw [← h.frame.idx w (h.inv₀.stack_vis hw)]
      rcases List.mem_append.1 hx with hx | hx
      · exact hedges x hx hGx w hw hc
      · simp only [List.mem_singleton] at hx
        subst hx
        exact (h.targets w hc).2 hw
  · rw [setFound_found, if_pos rfl]
  · intro c hc; exact CodesOf.consistent.1 f c (h.sound c hc)
  · intro _ hns; exact absurd (h.inv.gray_on f (by simp)) hns

theorem end_root {gs : List N} {f : N} {st st₂ : Search N D} {R : CodeSet}
    (hG : ∀ x y, G x → Calls plan x y → G y)
    (h : EndingG G plan gs f st R st₂) (hlow : st₂.scc.low f = st₂.scc.idx f) {ext : List N}
    (hext : st₂.scc.stack = ext ++ f :: st.scc.stack)
    (hedges : ∀ x ∈ ext, G x → ∀ z ∈ st.scc.stack, Calls plan x z → st₂.scc.low f ≤ st₂.scc.idx z)
    {scc₃ : Scc N}
    (hscc : scc₃ = { (st₂.scc.clear (ext ++ [f])) with stack := st.scc.stack })
    {st₃ : Search N D}
    (hst : st₃ = { (st₂.setFound f R) with
      scc := scc₃, comps := st₂.comps ++ [(ext ++ [f]).reverse] }) :
    PostFG G plan gs f st (st₃.unify (ext ++ [f]).reverse).1 (st₃.unify (ext ++ [f]).reverse).2 := by
  have hsorted := h.inv.sorted
  rw [hext, List.pairwise_append] at hsorted
  obtain ⟨hse, hsb, hcross⟩ := hsorted
  have hfidx : ∀ x ∈ ext, st₂.scc.idx f < st₂.scc.idx x := fun x hx => hcross x hx f (by simp)
  have hbidx : ∀ z ∈ st.scc.stack, st₂.scc.idx z < st₂.scc.idx f := (List.pairwise_cons.1 hsb).1
  have hfgs : f ∉ gs := fun hm => h.new (h.inv₀.stack_vis (h.inv₀.gray_on f hm))
  have hfst : f ∈ st₂.scc.stack := h.inv.gray_on f (by simp)
  have htop : ∀ x ∈ st₂.scc.stack, Reach (Calls plan) x f := by
    intro x hx
    obtain ⟨g', hg', hr⟩ := h.inv.toTop x hx
    simp only [List.head?_cons, Option.some.injEq] at hg'
    subst hg'; exact hr
  -- the component
  let C := (ext ++ [f]).reverse
  have hCdef : C = (ext ++ [f]).reverse := rfl
  have hC : ∀ x, x ∈ C ↔ x ∈ ext ∨ x = f := by intro x; simp [C, or_comm]
  have hCst : ∀ x ∈ C, x ∈ st₂.scc.stack := by
    intro x hx
    rw [hext]
    rcases (hC x).1 hx with hx | rfl
    · simp [hx]
    · simp
  have hCidx : ∀ x ∈ C, st₂.scc.idx f ≤ st₂.scc.idx x := by
    intro x hx
    rcases (hC x).1 hx with hx | rfl
    · exact Nat.le_of_lt (hfidx x hx)
    · exact Nat.le_refl _
  have hCbase : ∀ x ∈ C, x ∉ st.scc.stack := by
    intro x hx hxs
    have := hCidx x hx; have := hbidx x hxs; omega
  have hCgs : ∀ x ∈ C, x ∉ gs := fun x hx hxg => hCbase x hx (h.inv₀.gray_on x hxg)
  have hsplit : ∀ x, x ∈ st₂.scc.stack ↔ x ∈ C ∨ x ∈ st.scc.stack := by
    intro x; rw [hext, hC]; simp [or_assoc]
  have hCvis : ∀ x ∈ C, ∀ y, Calls plan x y → st₂.scc.Vis y := by
    intro x hx y hxy
    by_cases hxf : x = f
    · subst hxf; exact (h.targets y hxy).1
    · exact h.inv.black x (h.inv.stack_vis (hCst x hx)) (by simp [hxf, hCgs x hx]) y hxy
  have hnobase : ∀ x ∈ C, G x → ∀ y, Calls plan x y → y ∉ st.scc.stack := by
    intro x hx hGx y hxy hy
    have h1 := hbidx y hy
    rcases (hC x).1 hx with hx | rfl
    · have := hedges x hx hGx y hy hxy; omega
    · have := (h.targets y hxy).2 hy; omega
  -- closed sets
  have hdoneClosed : ∀ a b, (G a ∧ st₂.scc.Vis a ∧ a ∉ st₂.scc.stack) → Calls plan a b →
      (G b ∧ st₂.scc.Vis b ∧ b ∉ st₂.scc.stack) := fun a b ha hab =>
    ⟨hG a b ha.1 hab, h.inv.done a ha.1 ha.2.1 ha.2.2 b hab⟩
  have hClosed : ∀ a b, (G a ∧ (a ∈ C ∨ (st₂.scc.Vis a ∧ a ∉ st₂.scc.stack))) → Calls plan a b →
      (G b ∧ (b ∈ C ∨ (st₂.scc.Vis b ∧ b ∉ st₂.scc.stack))) := by
    rintro a b ⟨hGa, ha⟩ hab
    refine ⟨hG a b hGa hab, ?_⟩
    rcases ha with ha | ha
    · by_cases hb : b ∈ st₂.scc.stack
      · exact .inl (((hsplit b).1 hb).resolve_right (hnobase a ha hGa b hab))
      · exact .inr ⟨hCvis a ha b hab, hb⟩
    · exact .inr (hdoneClosed a b ⟨hGa, ha⟩ hab).2
  have hreachC : ∀ x ∈ C, G x → ∀ y, Reach (Calls plan) x y →
      y ∈ C ∨ (st₂.scc.Vis y ∧ y ∉ st₂.scc.stack) := fun x hx hGx y hr =>
    (Reach.closed hClosed hr ⟨hGx, .inl hx⟩).2
  have hfC : f ∈ C := (hC f).2 (.inr rfl)
  have hmut : ∀ x ∈ C, Mutual (Calls plan) f x := fun x hx =>
    ⟨h.inv.desc f (by simp) x (hCst x hx) (hCidx x hx), htop x (hCst x hx)⟩
  have hCmut : ∀ x ∈ C, ∀ y ∈ C, Mutual (Calls plan) x y := fun x hx y hy =>
    (hmut x hx).symm.trans (hmut y hy)
  have hCscc : ∀ x ∈ C, G x → ∀ y, Mutual (Calls plan) x y → y ∈ C := by
    intro x hx hGx y hm
    rcases hreachC x hx hGx y hm.1 with hy | hy
    · exact hy
    · exact absurd (hCst x hx) (Reach.closed hdoneClosed hm.2 ⟨hm.1.closed hG hGx, hy⟩).2.2
  -- views of the final state
  have hv : ∀ x, scc₃.vertices x =
      if x ∈ ext ++ [f] then (st₂.scc.vertices x).map (fun v => { v with isOnStack := false })
      else st₂.scc.vertices x := by
    intro x; subst hscc; rfl
  have hCmem : ∀ x, x ∈ ext ++ [f] ↔ x ∈ C := by intro x; simp [C, or_comm]
  have hvis : ∀ x, scc₃.Vis x ↔ st₂.scc.Vis x := by
    intro x; simp only [Scc.Vis, hv]; split <;> simp
  have hidx : ∀ x, scc₃.idx x = st₂.scc.idx x := by
    intro x; simp only [Scc.idx, hv]; split
    · cases st₂.scc.vertices x <;> simp
    · rfl
  have hlow3 : ∀ x, scc₃.low x = st₂.scc.low x := by
    intro x; simp only [Scc.low, hv]; split
    · cases st₂.scc.vertices x <;> simp
    · rfl
  have hstk : scc₃.stack = st.scc.stack := by subst hscc; rfl
  have hindex : scc₃.index = st₂.scc.index := by subst hscc; rfl
  have hon : ∀ x, scc₃.On x ↔ st₂.scc.On x ∧ x ∉ C := by
    intro x
    simp only [Scc.On, hv, hCmem]
    by_cases hx : x ∈ C
    · simp only [hx, if_true, not_true, and_false, iff_false]
      rintro ⟨v, hv1, hv2⟩
      cases hvx : st₂.scc.vertices x <;> simp [hvx] at hv1
      subst hv1; simp at hv2
    · simp [hx]
  obtain ⟨hu1, hu2, hu3⟩ := unify_scc st₃ C
  have hufound := unify_found st₃ C
  have hmem := mem_unify st₃ C
  rw [← hCdef]
  generalize hU : st₃.unify C = u at hu1 hu2 hu3 hufound hmem
  obtain ⟨U, su⟩ := u
  dsimp only at hu1 hu2 hu3 hufound hmem ⊢
  have hsu1 : su.scc = scc₃ := by rw [hu1, hst]
  have hsu2 : su.diags = st₂.diags := by rw [hu2, hst]; rfl
  have hsu3 : su.comps = st₂.comps ++ [C] := by rw [hu3, hst]
  have hf3 : st₃.found = (st₂.setFound f R).found := by rw [hst]
  have hd : ∀ x, su.diagsOf x = st₂.diagsOf x := by intro x; simp [diagsOf, hsu2]
  -- codes of the component
  have hUsound : ∀ x ∈ C, ∀ c ∈ U, CodesOf plan x c := by
    intro x hx c hc
    obtain ⟨y, hy, hcy⟩ := (hmem c).1 hc
    rw [hf3] at hcy
    cases hfy : (st₂.setFound f R).found y with
    | none => simp [hfy] at hcy
    | some S =>
      have := setFound_sound h y S hfy c (by simpa [hfy] using hcy)
      exact CodesOf.consistent.2 x y c (hCmut x hx y hy) this
  have hUraw : ∀ x ∈ C, G x → ∀ c, (plan x).Yields (Outer plan x) c → c ∈ U := by
    intro x hx hGx c hc
    refine (hmem c).2 ⟨x, hx, ?_⟩
    rw [hf3, setFound_found]
    by_cases hxf : x = f
    · subst hxf; simp [h.complete hGx c hc]
    · obtain ⟨S, hS, hall⟩ := h.inv.raw x hGx (hCst x hx) (by simp [hxf, hCgs x hx])
      simp [hxf, hS, hall c hc]
  have hUcomplete : ∀ x ∈ C, G x → ∀ c, CodesOf plan x c → c ∈ U := by
    intro x hx hGx
    have hGC : ∀ y ∈ C, G y := fun y hy => (hCmut x hx y hy).1.closed hG hGx
    exact component_complete
      (fun a ha b => ⟨fun hb => hCmut a ha b hb, hCscc a ha (hGC a ha) b⟩)
      (fun a ha => hUraw a ha (hGC a ha)) x hx
  have hfound : ∀ x, su.found x = if x ∈ C then some U else st₂.found x := by
    intro x
    rw [hufound, hf3]
    by_cases hx : x ∈ C
    · simp [hx]
    · have hxf : x ≠ f := fun e => hx (e ▸ hfC)
      simp [hx, setFound_found, hxf]
  have hCnodup : C.Nodup := by
    rw [hCdef, List.nodup_iff_pairwise_ne]
    rw [List.pairwise_reverse]
    have : (ext ++ [f]).Pairwise (fun x y => st₂.scc.idx y < st₂.scc.idx x) := by
      have := h.inv.sorted
      rw [hext, show ext ++ f :: st.scc.stack = (ext ++ [f]) ++ st.scc.stack by simp] at this
      exact (List.pairwise_append.1 this).1
    exact this.imp (by intro a b hab e; subst e; omega)
  refine ⟨⟨?_, ?_, ?_, ?_, ?_, ?_, ?_, ?_, ?_, ?_, ?_, ?_, ?_, ?_, ?_, ?_, ?_, ?_, ?_, ?_, ?_, ?_⟩,
    ⟨?_, ?_, ?_, ?_⟩, ?_, ?_, ?_, ?_, .inl ⟨?_, ?_⟩, ?_, ?_, ?_⟩
  · intro x
    rw [hsu1, hstk, hon, ← h.inv.stack_iff, hsplit]
    constructor
    · intro hx; exact ⟨.inr hx, fun hxC => hCbase x hxC hx⟩
    · rintro ⟨hx | hx, hn⟩
      · exact absurd hx hn
      · exact hx
  · rw [hsu1, hstk]
    simp only [hidx]
    exact (List.pairwise_cons.1 hsb).2
  · intro x hx
    rw [hsu1] at hx ⊢
    rw [hidx, hindex]; exact h.inv.idx_lt x ((hvis x).1 hx)
  · rw [hsu1, hstk]; exact h.inv₀.gray_on
  · rw [hsu1, hstk]; exact h.inv₀.toTop
  · rw [hsu1, hstk]
    intro g hg y hy hle
    rw [hidx, hidx] at hle
    exact h.inv.desc g (by simp [hg]) y ((hsplit y).2 (.inr hy)) hle
  · intro x hx hxg y hxy
    rw [hsu1, hvis] at hx ⊢
    by_cases hxf : x = f
    · subst hxf; exact (h.targets y hxy).1
    · exact h.inv.black x hx (by simp [hxf, hxg]) y hxy
  · intro x hGx hx hxs y hxy
    rw [hsu1, hvis] at hx ⊢
    rw [hsu1, hstk] at hxs
    rw [hstk]
    have hxc : x ∈ C ∨ (st₂.scc.Vis x ∧ x ∉ st₂.scc.stack) := by
      by_cases hxC : x ∈ C
      · exact .inl hxC
      · exact .inr ⟨hx, fun hm => ((hsplit x).1 hm).elim hxC hxs⟩
    rcases (hClosed x y ⟨hGx, hxc⟩ hxy).2 with hy | hy
    · exact ⟨h.inv.stack_vis (hCst y hy), hCbase y hy⟩
    · exact ⟨hy.1, fun hm => hy.2 ((hsplit y).2 (.inr hm))⟩
  · intro x S hS c hc
    rw [hfound] at hS
    split at hS
    · rename_i hx; cases hS; exact hUsound x hx c hc
    · exact h.inv.sound x S hS c hc
  · intro x hGx hx hxs
    rw [hsu1, hvis] at hx
    rw [hsu1, hstk] at hxs
    by_cases hxC : x ∈ C
    · exact ⟨U, by rw [hfound, if_pos hxC], hUcomplete x hxC hGx⟩
    · obtain ⟨S, hS, hall⟩ := h.inv.complete x hGx hx (fun hm => ((hsplit x).1 hm).elim hxC hxs)
      exact ⟨S, by rw [hfound, if_neg hxC, hS], hall⟩
  · intro x hGx hx hxg
    rw [hsu1, hstk] at hx
    have hxC : x ∉ C := fun hxC => hCbase x hxC hx
    have hxf : x ≠ f := fun e => hxC (e ▸ hfC)
    obtain ⟨S, hS, hall⟩ := h.inv.raw x hGx ((hsplit x).2 (.inr hx)) (by simp [hxf, hxg])
    exact ⟨S, by rw [hfound, if_neg hxC, hS], hall⟩
  · intro x S hS
    rw [hfound] at hS
    rw [hsu1, hvis]
    split at hS
    · rename_i hx; exact ⟨h.inv.stack_vis (hCst x hx), hCgs x hx⟩
    · obtain ⟨h1, h2⟩ := h.inv.found_vis x S hS
      exact ⟨h1, fun hm => h2 (by simp [hm])⟩
  · intro x hx hxg
    rw [hsu1, hvis] at hx
    rw [hfound]
    by_cases hxC : x ∈ C
    · exact ⟨U, by rw [if_pos hxC]⟩
    · rw [if_neg hxC]
      exact h.inv.has x hx (by simp only [List.mem_cons, not_or]; exact ⟨fun e => hxC (e ▸ hfC), hxg⟩)
  · intro x S hS c hc
    rw [hfound] at hS
    split at hS
    · rename_i hx
      cases hS
      refine (hmem c).2 ⟨x, hx, ?_⟩
      rw [hf3]
      have hsome : ∃ S, (st₂.setFound f R).found x = some S := by
        rw [setFound_found]
        by_cases hxf : x = f
        · exact ⟨R, by rw [if_pos hxf]⟩
        · rw [if_neg hxf]
          exact h.inv.has x (h.inv.stack_vis (hCst x hx)) (by simp [hxf, hCgs x hx])
      obtain ⟨S, hS⟩ := hsome
      rw [hS]
      exact setFound_own h x S hS c hc
    · exact h.inv.own x S hS c hc
  · intro x
    rw [hsu3, hsu1, hvis, hstk, List.flatten_append, List.mem_append, h.inv.comps_iff]
    simp only [List.flatten_cons, List.flatten_nil, List.append_nil, hsplit, not_or]
    constructor
    · rintro (⟨h1, _, h3⟩ | h1)
      · exact ⟨h1, h3⟩
      · exact ⟨h.inv.stack_vis (hCst x h1), hCbase x h1⟩
    · rintro ⟨h1, h2⟩
      by_cases hxC : x ∈ C
      · exact .inr hxC
      · exact .inl ⟨h1, hxC, h2⟩
  · rw [hsu3, List.flatten_append, List.nodup_append]
    refine ⟨h.inv.comps_nodup, by simpa using hCnodup, ?_⟩
    intro a ha b hb e
    subst e
    have hb' : a ∈ C := by simpa using hb
    exact ((h.inv.comps_iff a).1 ha).2 (hCst a hb')
  · intro K hK
    rw [hsu3] at hK
    rcases List.mem_append.1 hK with hK | hK
    · exact h.inv.comps_ne K hK
    · simp only [List.mem_singleton] at hK
      subst hK; exact List.ne_nil_of_mem hfC
  · intro K hK
    rw [hsu3] at hK
    rcases List.mem_append.1 hK with hK | hK
    · exact h.inv.comps_mutual K hK
    · simp only [List.mem_singleton] at hK
      subst hK; exact hCmut
  · intro K hK
    rw [hsu3] at hK
    rcases List.mem_append.1 hK with hK | hK
    · exact h.inv.comps_scc K hK
    · simp only [List.mem_singleton] at hK
      subst hK; exact hCscc
  · intro pre K post hpk x hx hGx y hr
    rw [hsu3] at hpk
    rcases List.eq_nil_or_concat post with rfl | ⟨post', K', rfl⟩
    · have := List.append_inj' hpk rfl
      obtain ⟨h1, h2⟩ := this
      simp only [List.cons.injEq, and_true] at h2
      subst h2
      rcases hreachC x hx hGx y hr with hy | hy
      · exact .inl hy
      · right; rw [← h1]; exact (h.inv.comps_iff y).2 hy
    · have h2 : st₂.comps ++ [C] = (pre ++ K :: post') ++ [K'] := by
        rw [hpk]; simp
      obtain ⟨h1, _⟩ := List.append_inj' h2 rfl
      exact h.inv.comps_order pre K post' h1 x hx hGx y hr
  · intro x hx hxg
    rw [hsu1, hvis] at hx
    rw [hd]
    by_cases hxf : x = f
    · subst hxf; exact h.diagsf
    · exact h.inv.diags_vis x hx (by simp [hxf, hxg])
  · intro x hx
    rw [hsu1, hvis] at hx
    rw [hd]; exact h.inv.diags_new x hx
  · intro x hx; rw [hsu1, hvis]; exact h.frame.vis x hx
  · intro x hx; rw [hsu1, hidx]; exact h.frame.idx x hx
  · rw [hsu1, hindex]; exact h.frame.index
  · obtain ⟨cs, hcs⟩ := h.frame.comps
    exact ⟨cs ++ [C], by rw [hsu3, hcs, List.append_assoc]⟩
  · intro x hx
    have hxC : x ∉ C := by
      intro hxC
      have h1 := hCidx x hxC
      have h2 := h.frame.idx x hx
      have h3 := h.inv₀.idx_lt x hx
      have h4 := h.idxf
      omega
    rw [hsu1, hv, if_neg (fun hm => hxC ((hCmem x).1 hm))]
    exact h.same x hx
  · intro x hx; rw [hd]; exact h.diags x hx
  · rw [hsu1, hvis]; exact h.inv.stack_vis hfst
  · intro x hx
    rw [hsu1, hvis] at hx
    exact h.reach x hx
  · rw [hsu1, hstk]
  · rw [hsu1, hlow3, hlow, h.idxf]; exact Nat.le_refl _
  · rw [hfound, if_pos hfC]
  · exact fun c hc => hUsound f hfC c hc
  · intro hGf _ c hc; exact hUcomplete f hfC hGf c hc

theorem findInFunc_specG (hG : ∀ x y, G x → Calls plan x y → G y)
    (hlit : ∀ f, G f → ∀ z ∈ (plan f).visits, ¬ Reach (Calls plan) z f) :
    ∀ fuel, RecSpecG G plan (findInFunc plan fuel) := by
  intro fuel
  induction fuel with
  | zero => intro gs g st _ _ _; exact .inl rfl
  | succ fuel ih =>
    intro gs f st hinv hnew hE
    obtain ⟨sc, hvisit, hinv1, hloc1, hframe1, hsame1, hvis1, hidx1⟩ := visit_inv hinv hnew hE
    have hrev : ∀ g st, st.scc.Vis g → ∀ f, (plan f).visits ≠ [] →
        ∀ Q, Holds plan (findInFunc plan fuel g st) Q := by
      intro g st hg f hf Q
      cases fuel with
      | zero => exact .inl rfl
      | succ n =>
        have : ∃ v, st.scc.vertices g = some v := Option.ne_none_iff_exists'.1 hg
        obtain ⟨v, hv⟩ := this
        unfold findInFunc Scc.visit
        rw [hv]
        exact .inr (.inl ⟨rfl, f, hf⟩)
    have hexec := exec_spec ih hrev (gs := gs) (f := f) (base := st.scc.stack) hG (hlit f) (plan f)
      { st with scc := sc } (fun z hz => hz) (fun z hz => hz) (fun h => h) hinv1 hloc1
    unfold findInFunc
    refine Holds.bind (P := fun s => s = sc) (by rw [hvisit]; rfl) ?_
    intro scc' hscc'
    subst hscc'
    refine Holds.bind hexec ?_
    rintro ⟨R, st₂⟩ hp
    dsimp only at hp
    have hne : ∀ x, st.scc.Vis x → x ≠ f := fun x hx e => hnew (e ▸ hx)
    have hv1 : ∀ x, st.scc.Vis x → ({ st with scc := scc' } : Search N D).scc.Vis x :=
      fun x hx => (hvis1 x).2 (.inr hx)
    have hend : EndingG G plan gs f st R st₂ := by
      refine ⟨hinv, hnew, hp.inv, hp.loc, hframe1.trans hp.frame, ?_, ?_, ?_, ?_, ?_, hp.targets,
        hp.sound, hp.own, hp.complete⟩
      · intro x hx
        rw [hp.same x (hv1 x hx) (hne x hx)]
        exact hsame1 x hx
      · rw [hp.frame.idx f ((hvis1 f).2 (.inl rfl))]; exact hidx1
      · intro x hx
        rw [hp.diags x (hv1 x hx) (hne x hx)]
        rfl
      · rw [hp.diagsf]
        have : ({ st with scc := scc' } : Search N D).diagsOf f = [] := hinv.diags_new f hnew
        rw [this, List.nil_append]
      · intro x hx
        rcases hp.reach x hx with h | h
        · rcases (hvis1 x).1 h with rfl | h
          · exact .inr (.refl _)
          · exact .inl h
        · exact .inr h
    obtain ⟨v, hvf, _⟩ := (hp.inv.stack_iff f).1 (hp.inv.gray_on f (by simp))
    have hidxv : st₂.scc.idx f = v.index := by simp [Scc.idx, hvf]
    have hlowv : st₂.scc.low f = v.lowindex := by simp [Scc.low, hvf]
    have hse : (st₂.setFound f R).scc = st₂.scc := rfl
    simp only [hse, Scc.endVisit, hvf]
    by_cases hroot : v.index ≠ v.lowindex
    · simp only [if_pos hroot]
      exact end_inner hend (by omega)
    · simp only [if_neg hroot]
      obtain ⟨ext, hext, hedges⟩ := hp.loc.ext
      have hfext : f ∉ ext := by
        have hs := hp.inv.sorted
        rw [hext, List.pairwise_append] at hs
        intro hm
        have := hs.2.2 f hm f (by simp)
        omega
      have hpop : Scc.popTo f st₂.scc.stack = some (ext ++ [f], st.scc.stack) := by
        rw [hext]; exact Scc.popTo_append hfext
      simp only [hpop]
      exact end_root hG hend (by omega) hext hedges rfl rfl

end Search
end Serum
