import Verif.Props.Session
import Verif.Props.RunOrder
import Verif.Props.LinkedExample

/-! # C49: analysing a program again

Two analyses of the same program, with the packages in any admissible order, and with all maps iterated in any order, give the same
results for each package. -/

namespace Serum.Props.Session
open Serum RunSpec SessionSpec Run

variable {strict : Bool} {imports imports' : Member → Member → Prop} {visible visible' : Member → Object → Prop} {ms ms' : List Member}

/-- Only facts about visible objects are passed on. -/
def OnlyVisible (imports : Member → Member → Prop) (visible : Member → Object → Prop) (ms : List Member) : Prop :=
  ∀ m ∈ ms, ∀ o x, m.pkg.env.facts.Has o x → ∃ q, imports m q ∧ visible q o ∧ q.out.facts.Has o x

/-- The same source text and type information (of packages of two programs). -/
def SamePackage (m m' : Member) : Prop := alone m.pkg = alone m'.pkg

/-- Every import of a package of `ms` is an import of the same package in `ms'`, with the same visible objects. -/
def SameImportsOf (imports imports' : Member → Member → Prop) (visible visible' : Member → Object → Prop) (ms ms' : List Member) : Prop :=
  ∀ m ∈ ms, ∀ m' ∈ ms', SamePackage m m' → ∀ q, imports m q →
    ∃ q', imports' m' q' ∧ SamePackage q q' ∧ ∀ o, visible q o → visible' q' o

theorem same_given {m m' : Member} (h : SamePackage m m') : m'.pkg = m.pkg.given m'.pkg.env.facts :=
  show (alone m'.pkg).given m'.pkg.env.facts = (alone m.pkg).given m'.pkg.env.facts by rw [h]

private theorem imported_mem (s : Session strict imports visible ms) {m q : Member} (hm : m ∈ ms) (hi : imports m q) : q ∈ ms := by
  obtain ⟨pre, post, e⟩ := List.append_of_mem hm
  rw [e]; simp [s.order _ _ _ e _ hi]

/-- Facts carried over from one program to the other. -/
private theorem carried (v : OnlyVisible imports visible ms) (s' : Session strict imports' visible' ms')
    (hi : SameImportsOf imports imports' visible visible' ms ms') {m m' : Member} (hm : m ∈ ms) (hm' : m' ∈ ms') (he : SamePackage m m')
    {x : Fact} {o : Object} (ih : ∀ q q', imports m q → imports' m' q' → SamePackage q q' → q.out.facts.Has o x → q'.out.facts.Has o x)
    (hx : m.pkg.env.facts.Has o x) : m'.pkg.env.facts.Has o x := by
  obtain ⟨q, h1, h2, h3⟩ := v m hm o x hx
  obtain ⟨q', k1, k2, k3⟩ := hi m hm m' hm' he q h1
  exact s'.passed m' hm' q' k1 o x (k3 o h2) (ih q q' h1 k1 k2 h3)

/-- The facts given to the two analyses of one package are the same. -/
private theorem given_same (s : Session strict imports visible ms) (s' : Session strict imports' visible' ms')
    (v : OnlyVisible imports visible ms) (v' : OnlyVisible imports' visible' ms')
    (hi : SameImportsOf imports imports' visible visible' ms ms') (hi' : SameImportsOf imports' imports visible' visible ms' ms)
    {m m' : Member} (hm : m ∈ ms) (hm' : m' ∈ ms') (he : SamePackage m m')
    (ih : ∀ q q', imports m q → imports' m' q' → SamePackage q q' → SameFacts q.out.facts q'.out.facts) :
    SameFacts m.pkg.env.facts m'.pkg.env.facts := by
  have fwd : ∀ (x : Fact) (o : Object), (∀ a b : Facts, SameFacts a b → a.Has o x → b.Has o x) → m.pkg.env.facts.Has o x → m'.pkg.env.facts.Has o x :=
    fun x o hk => carried v s' hi hm hm' he fun q q' h1 h2 h3 => hk _ _ (ih q q' h1 h2 h3)
  have bwd : ∀ (x : Fact) (o : Object), (∀ a b : Facts, SameFacts a b → a.Has o x → b.Has o x) → m'.pkg.env.facts.Has o x → m.pkg.env.facts.Has o x :=
    fun x o hk => carried v' s hi' hm' hm he.symm fun q' q h1 h2 h3 => hk _ _ (ih q q' h2 h1 h3.symm).symm
  refine ⟨?_, ?_, ?_, fun o => ?_⟩
  · funext o
    have hk : ∀ C, ∀ a b : Facts, SameFacts a b → a.Has o (.codes C) → b.Has o (.codes C) := fun C a b h hx => by
      unfold Facts.Has at *; rw [← h.codes]; exact hx
    exact Option.ext fun C => ⟨fwd (.codes C) o (hk C), bwd (.codes C) o (hk C)⟩
  · funext o
    have hk : ∀ n, ∀ a b : Facts, SameFacts a b → a.Has o (.ctor n) → b.Has o (.ctor n) := fun n a b h hx => by
      unfold Facts.Has at *; rw [← h.ctor]; exact hx
    exact Option.ext fun n => ⟨fwd (.ctor n) o (hk n), bwd (.ctor n) o (hk n)⟩
  · funext o
    have hk : ∀ t, ∀ a b : Facts, SameFacts a b → a.Has o (.errorType t) → b.Has o (.errorType t) := fun t a b h hx => by
      unfold Facts.Has at *; rw [← h.errorType]; exact hx
    exact Option.ext fun t => ⟨fwd (.errorType t) o (hk t), bwd (.errorType t) o (hk t)⟩
  · have other : ∀ {a b : Facts}, SameFacts a b → ∀ {tab}, a.Has o (.interface tab) → ∃ tab', b.Has o (.interface tab') ∧ tab.Perm tab' := by
      intro a b h tab hx
      rcases h.interface o with ⟨k, -⟩ | ⟨t1, t2, k1, k2, k3⟩
      · rw [show a.interface o = some tab from hx] at k; cases k
      · rw [show a.interface o = some tab from hx] at k1; cases k1; exact ⟨t2, k2, k3⟩
    cases h1 : m.pkg.env.facts.interface o with
    | some tab =>
      obtain ⟨q, a1, a2, a3⟩ := v m hm o (.interface tab) h1
      obtain ⟨q', b1, b2, b3⟩ := hi m hm m' hm' he q a1
      obtain ⟨tab', c1, c2⟩ := other (ih q q' a1 b1 b2) a3
      exact .inr ⟨tab, tab', rfl, s'.passed m' hm' q' b1 o _ (b3 o a2) c1, c2⟩
    | none =>
      cases h2 : m'.pkg.env.facts.interface o with
      | none => exact .inl ⟨rfl, rfl⟩
      | some tab =>
        exfalso
        obtain ⟨q', a1, a2, a3⟩ := v' m' hm' o (.interface tab) h2
        obtain ⟨q, b1, b2, b3⟩ := hi' m' hm' m hm he.symm q' a1
        obtain ⟨tab', c1, c2⟩ := other (ih q q' b1 a1 b2.symm).symm a3
        have := s.passed m hm q b1 o _ (b3 o a2) c1
        rw [show m.pkg.env.facts.interface o = some tab' from this] at h1; cases h1

/-- **C49**, facts: two analyses of a program record the same facts. -/
theorem facts_again (s : Session strict imports visible ms) (w : Packages ms) (s' : Session strict imports' visible' ms')
    (v : OnlyVisible imports visible ms) (v' : OnlyVisible imports' visible' ms')
    (hi : SameImportsOf imports imports' visible visible' ms ms') (hi' : SameImportsOf imports' imports visible' visible ms' ms) :
    ∀ m ∈ ms, ∀ m' ∈ ms', SamePackage m m' →
      SameFacts m.pkg.env.facts m'.pkg.env.facts ∧ SameFacts m.out.facts m'.out.facts := by
  have key : ∀ (n : Nat) {pre m post}, pre.length = n → ms = pre ++ m :: post → ∀ m' ∈ ms', SamePackage m m' →
      SameFacts m.pkg.env.facts m'.pkg.env.facts ∧ SameFacts m.out.facts m'.out.facts := by
    intro n
    induction n using Nat.strongRecOn with
    | _ n ih =>
      intro pre m post hn e m' hm' he
      have hm : m ∈ ms := by rw [e]; simp
      have hg := given_same s s' v v' hi hi' hm hm' he (by
        intro q q' h1 h2 h3
        obtain ⟨a, b, rfl⟩ := List.append_of_mem (s.order _ _ _ e _ h1)
        exact (ih a.length (by simp at hn; omega) (post := b ++ m :: post) rfl (by rw [e]; simp) q' (imported_mem s' hm' h2) h3).2)
      refine ⟨hg, ?_⟩
      obtain ⟨s1, r⟩ := ran_iff.1 (s.ran m hm)
      have r' := s'.ran m' hm'
      rw [same_given he] at r'
      obtain ⟨s2, r'⟩ := ran_iff.1 r'
      exact Prepared.sameFacts' hg r.toPrepared r'.toPrepared (s.fair m hm) (s'.fair m' hm') (member s w hm).objects (w.interfaces m hm)
  intro m hm
  obtain ⟨pre, post, e⟩ := List.append_of_mem hm
  exact key _ rfl e

/-- **C49**: two analyses of a program, with the packages in any order in which imported packages come first, and with all maps iterated
in any order, have the same results for each package: the same facts, and the same diagnostics the same number of times.

Partial: as for single packages (`Run.order_independent_partial`), for packages in which neither functions with declarations nor methods
looked at for conversions reach a function literal that calls back. -/
theorem program_again_partial (s : Session strict imports visible ms) (w : Packages ms) (s' : Session strict imports' visible' ms')
    (v : OnlyVisible imports visible ms) (v' : OnlyVisible imports' visible' ms')
    (hi : SameImportsOf imports imports' visible visible' ms ms') (hi' : SameImportsOf imports' imports visible' visible ms' ms)
    {m m' : Member} (hm : m ∈ ms) (hm' : m' ∈ ms') (he : SamePackage m m')
    (hl₁ : ∀ f c, Compared m.pkg f c → CallGraph.Settled (m.pkg.plan (during m.pkg m.out.facts)) f)
    (hl : ∀ f, Asked (m.pkg.at_ m.out.facts) (checks m.pkg m.out.facts) f → CallGraph.Settled (seen m.pkg m.out.facts) f) :
    SameOutcome m.out m'.out := by
  have r' := s'.ran m' hm'
  rw [same_given he] at r'
  exact same_inputs_partial (facts_again s w s' v v' hi hi' m hm m' hm' he).1 (s.ran m hm) r' (s.fair m hm) (s'.fair m' hm')
    (member s w hm).objects (w.interfaces m hm) hl₁ hl

/-! ## Example

The two packages of `Props/LinkedExample.lean`, analysed a second time with other iteration orders. -/

namespace Again
open Linked.Example

def a' : Member := ⟨aPkg, schedule', aOut⟩
def b' : Member := ⟨bPkg, schedule', bOut⟩

theorem a_ran' : runVerify aPkg schedule' false = .ok aOut := rfl
theorem b_ran' : runVerify bPkg schedule' false = .ok bOut := rfl

theorem a_ne_b' : a' ≠ b' := fun h => by
  have : a'.pkg.ifaces = b'.pkg.ifaces := by rw [h]
  cases this

theorem session' : Session false (fun m q => m = b' ∧ q = a') Linked.Example.visible [a', b'] where
  fair := by
    intro m hm
    simp only [List.mem_cons, List.not_mem_nil, or_false] at hm
    rcases hm with rfl | rfl <;> exact schedule'_fair
  ran := by
    intro m hm
    simp only [List.mem_cons, List.not_mem_nil, or_false] at hm
    rcases hm with rfl | rfl
    · exact a_ran'
    · exact b_ran'
  order := by
    rintro pre m post e q ⟨rfl, rfl⟩
    match pre, e with
    | [], e => simp only [List.nil_append, List.cons.injEq] at e; exact absurd e.1 a_ne_b'
    | p :: pre, e => simp only [List.cons_append, List.cons.injEq] at e; simp [e.1]
  known := by
    intro m hm o x hx
    simp only [List.mem_cons, List.not_mem_nil, or_false] at hm
    rcases hm with rfl | rfl
    · cases x <;> cases hx
    · exact ⟨a', ⟨rfl, rfl⟩, fun y => a_facts o y⟩
  passed := by
    rintro m hm q ⟨rfl, rfl⟩ o x _ hx
    exact (a_facts o x).2 hx

theorem visits_b (facts : Facts) (h : facts = bOut.facts ∨ facts = during bPkg bOut.facts) (f : FnId) : (bPkg.plan facts f).visits = [] := by
  rcases h with rfl | rfl
  all_goals
    match f with
    | 0 | 1 => rfl
    | f + 2 => simp [Package.plan, Package.at_, Package.start, Analyse.plan, Analyse.bodyPlan, Env.func, bPkg, bEnv, Plan.visits]

theorem settled_b (f : FnId) : CallGraph.Settled (seen bPkg bOut.facts) f := by
  refine CallGraph.NoLiteralCycle.settled ?_ f
  intro f g hg
  unfold seen at hg
  split at hg
  · rw [visits_b _ (.inr rfl)] at hg; cases hg
  · rw [visits_b _ (.inl rfl)] at hg; cases hg

theorem settled_b' (f : FnId) : CallGraph.Settled (bPkg.plan (during bPkg bOut.facts)) f := by
  refine CallGraph.NoLiteralCycle.settled ?_ f
  intro f g hg
  rw [visits_b _ (.inr rfl)] at hg; cases hg

theorem different : ¬ SamePackage a b' ∧ ¬ SamePackage b a' := by
  constructor
  · intro h
    have : (alone a.pkg).ifaces = (alone b'.pkg).ifaces := by rw [h]
    cases this
  · intro h
    have : (alone b.pkg).ifaces = (alone a'.pkg).ifaces := by rw [h]
    cases this

/-- The hypotheses hold for the example. -/
theorem same : SameOutcome b.out b'.out := by
  refine program_again_partial session packages session' ?_ ?_ ?_ ?_ (m := b) (m' := b') (by simp [ms]) (by simp) rfl
    (fun f _ _ => settled_b' f) (fun f _ => settled_b f)
  · intro m hm o x hx
    obtain ⟨q, h1, h2⟩ := session.known m hm o x hx
    exact ⟨q, h1, trivial, (h2 x).1 hx⟩
  · intro m hm o x hx
    obtain ⟨q, h1, h2⟩ := session'.known m hm o x hx
    exact ⟨q, h1, trivial, (h2 x).1 hx⟩
  · rintro m hm m' hm' he q ⟨rfl, rfl⟩
    simp only [List.mem_cons, List.not_mem_nil, or_false] at hm'
    rcases hm' with rfl | rfl
    · exact absurd he different.2
    · exact ⟨a', ⟨rfl, rfl⟩, rfl, fun _ _ => trivial⟩
  · rintro m hm m' hm' he q ⟨rfl, rfl⟩
    simp only [ms, List.mem_cons, List.not_mem_nil, or_false] at hm'
    rcases hm' with rfl | rfl
    · exact absurd he.symm different.1
    · exact ⟨a, ⟨rfl, rfl⟩, rfl, fun _ _ => trivial⟩

end Again

end Serum.Props.Session
