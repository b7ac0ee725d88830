import Verif.Props.Part
import Verif.Props.RunCrash

/-!
# C49/C63 — parts of a program, in any order

As `Props/Part.lean`, with different iteration orders of maps in the two analyses.
-/

namespace Serum.Props.Part
open Serum RunSpec SessionSpec Session ImportSpec Imports Run

/-- The facts about the object are the same (tables of interface methods up to their order). -/
structure AlikeAt (a b : Facts) (o : Object) : Prop where
  codes : a.codes o = b.codes o
  ctor : a.ctor o = b.ctor o
  errorType : a.errorType o = b.errorType o
  interface : (a.interface o = none ∧ b.interface o = none) ∨ ∃ ms ms', a.interface o = some ms ∧ b.interface o = some ms' ∧ ms.Perm ms'

theorem AlikeAt.refl (a : Facts) (o : Object) : AlikeAt a a o := by
  refine ⟨rfl, rfl, rfl, ?_⟩
  cases h : a.interface o with
  | none => exact .inl ⟨rfl, rfl⟩
  | some t => exact .inr ⟨t, t, rfl, rfl, .refl _⟩

theorem AlikeAt.symm {a b : Facts} {o : Object} (h : AlikeAt a b o) : AlikeAt b a o := by
  refine ⟨h.codes.symm, h.ctor.symm, h.errorType.symm, ?_⟩
  rcases h.interface with ⟨h1, h2⟩ | ⟨t, t', h1, h2, h3⟩
  · exact .inl ⟨h2, h1⟩
  · exact .inr ⟨t', t, h2, h1, h3.symm⟩

theorem AlikeAt.sameAt {a b c : Facts} {o : Object} (h : AlikeAt a b o) (h' : SameAt b c o) : AlikeAt a c o :=
  ⟨h.codes.trans h'.codes, h.ctor.trans h'.ctor, h.errorType.trans h'.errorType, by rw [← h'.interface]; exact h.interface⟩

theorem alikeAt_of_sameFacts {a b : Facts} (h : SameFacts a b) (o : Object) : AlikeAt a b o :=
  ⟨congrFun h.codes o, congrFun h.ctor o, congrFun h.errorType o, h.interface o⟩

/-- Facts `F` at the objects which the package comes across, `F₀` at others. -/
private noncomputable def mixed (P : Package) (F₀ F : Facts) : Facts :=
  open Classical in
  ⟨fun o => if Meets P o then F.codes o else F₀.codes o, fun o => if Meets P o then F.ctor o else F₀.ctor o,
    fun o => if Meets P o then F.errorType o else F₀.errorType o, fun o => if Meets P o then F.interface o else F₀.interface o⟩

private theorem mixed_met {P : Package} {F₀ F : Facts} {o : Object} (h : Meets P o) : SameAt F (mixed P F₀ F) o := by
  classical
  exact ⟨(if_pos h).symm, (if_pos h).symm, (if_pos h).symm, (if_pos h).symm⟩

private theorem mixed_unmet {P : Package} {F₀ F : Facts} {o : Object} (h : ¬ Meets P o) : SameAt F₀ (mixed P F₀ F) o := by
  classical
  exact ⟨(if_neg h).symm, (if_neg h).symm, (if_neg h).symm, (if_neg h).symm⟩

private theorem mixed_same {P : Package} {F : Facts} (h : ∀ o, Meets P o → AlikeAt P.env.facts F o) : SameFacts P.env.facts (mixed P P.env.facts F) := by
  classical
  have key : ∀ o, AlikeAt P.env.facts (mixed P P.env.facts F) o := fun o => by
    by_cases hm : Meets P o
    · exact (h o hm).sameAt (mixed_met hm)
    · exact (AlikeAt.refl _ o).sameAt (mixed_unmet hm)
  exact ⟨funext fun o => (key o).codes, funext fun o => (key o).ctor, funext fun o => (key o).errorType, fun o => (key o).interface⟩

private theorem meets_withImports {P : Package} {F : Facts} {o : Object} (h : Meets (P.withImports F) o) : Meets P o :=
  meets_same (m := ⟨P, schedule, pkgOut⟩) (m' := ⟨P.withImports F, schedule, pkgOut⟩) rfl h

/-- The second run, with the facts of the first one about everything that the package does not come across. -/
private theorem adapt {P : Package} {S' : Schedule} {strict : Bool} {F : Facts} {out' : Outcome} (h' : runVerify (P.withImports F) S' strict = .ok out') :
    ∃ g, runVerify (P.given (mixed P P.env.facts F)) S' strict = .ok { out' with facts := g } ∧
      ∀ o, Recorded F (mixed P P.env.facts F) out'.facts g o := by
  have key := unmet_imports (P := P.withImports F) (S := S') (strict := strict) (F := mixed P P.env.facts F)
    fun o ho => mixed_met (meets_withImports ho)
  rw [h'] at key
  exact key

section
variable {strict : Bool} {imports imports' : Member → Member → Prop} {visible visible' : Member → Object → Prop} {ms ms' : List Member}

private theorem given_iff (s : Session strict imports visible ms) (w : Packages ms) {m : Member} (hm : m ∈ ms) {o : Object}
    (hr : Reachable imports visible ms m o) (x : Fact) : m.pkg.env.facts.Has o x ↔ Elsewhere ms m o x := by
  constructor
  · intro h
    obtain ⟨r, hi, hy⟩ := s.known m hm o x h
    have hrm : r ∈ ms := by
      obtain ⟨pre, post, e⟩ := List.append_of_mem hm
      rw [e]; simp [s.order _ _ _ e _ hi]
    obtain ⟨q, hq, -, hb, hx⟩ := (facts_from_owner s w hrm).2 o x ((hy x).1 h)
    refine ⟨q, hq, ?_, hb, hx⟩
    rintro rfl
    exact (facts_from_owner s w hq).1 o x hb h
  · rintro ⟨q, hq, hne, hb, hx⟩
    exact ((facts_travel s w hm hq hb (hr q hq hne hb) x).1).2 hx

private theorem below_of {q m : Member} {o : Object} (h : Passes imports visible q o m) : Below imports q m := by
  induction h with
  | direct hi _ => exact .direct hi
  | through hi _ _ ih => exact .through hi ih

/-- What holds of a fact of one analysis, up to the order of tables, holds in the other. -/
private def Matches (a b : Facts) (o : Object) : Prop :=
  ∀ x, a.Has o x → match x with
    | .interface t => ∃ t', b.interface o = some t' ∧ t.Perm t'
    | x => b.Has o x

private theorem matches_of {a b : Facts} {o : Object} (h : AlikeAt a b o) : Matches a b o := by
  intro x hx
  cases x with
  | codes C => exact h.codes.symm.trans hx
  | ctor n => exact h.ctor.symm.trans hx
  | errorType t => exact h.errorType.symm.trans hx
  | interface t =>
    rcases h.interface with ⟨h1, -⟩ | ⟨t1, t2, h1, h2, h3⟩
    · rw [show a.interface o = some t from hx] at h1; cases h1
    · rw [show a.interface o = some t from hx] at h1; cases h1
      exact ⟨t2, h2, h3⟩

private theorem alike_of_matches {a b : Facts} {o : Object} (h : Matches a b o) (h' : Matches b a o) : AlikeAt a b o := by
  refine ⟨Option.ext fun C => ⟨h (.codes C), h' (.codes C)⟩, Option.ext fun n => ⟨h (.ctor n), h' (.ctor n)⟩,
    Option.ext fun t => ⟨h (.errorType t), h' (.errorType t)⟩, ?_⟩
  cases h1 : a.interface o with
  | none =>
    cases h2 : b.interface o with
    | none => exact .inl ⟨rfl, rfl⟩
    | some t =>
      obtain ⟨t', h3, -⟩ := h' (.interface t) h2
      rw [h1] at h3; cases h3
  | some t =>
    obtain ⟨t', h3, h4⟩ := h (.interface t) h1
    exact .inr ⟨t, t', rfl, h3, h4⟩

/-- What a package comes across is known alike, if the packages declaring it have recorded it alike. -/
private theorem given_alike (s : Session strict imports visible ms) (w : Packages ms) (s' : Session strict imports' visible' ms') (w' : Packages ms')
    {m m' : Member} (hm : m ∈ ms) (hm' : m' ∈ ms') {o : Object}
    (hr : Reachable imports visible ms m o) (hr' : Reachable imports' visible' ms' m' o)
    (hq : ∀ q ∈ ms, q ≠ m → Belongs q.pkg o → ∃ q' ∈ ms', q' ≠ m' ∧ Belongs q'.pkg o ∧ AlikeAt q.out.facts q'.out.facts o)
    (hq' : ∀ q' ∈ ms', q' ≠ m' → Belongs q'.pkg o → ∃ q ∈ ms, q ≠ m ∧ Belongs q.pkg o ∧ AlikeAt q.out.facts q'.out.facts o) :
    AlikeAt m.pkg.env.facts m'.pkg.env.facts o := by
  refine alike_of_matches (fun x hx => ?_) (fun x hx => ?_)
  · obtain ⟨q, h1, h2, h3, h4⟩ := (given_iff s w hm hr x).1 hx
    obtain ⟨q', k1, k2, k3, k4⟩ := hq q h1 h2 h3
    have back := fun y hy => (given_iff s' w' hm' hr' y).2 ⟨q', k1, k2, k3, hy⟩
    have := matches_of k4 x h4
    cases x with
    | interface t => obtain ⟨t', h5, h6⟩ := this; exact ⟨t', back (.interface t') h5, h6⟩
    | _ => exact back _ this
  · obtain ⟨q', h1, h2, h3, h4⟩ := (given_iff s' w' hm' hr' x).1 hx
    obtain ⟨q, k1, k2, k3, k4⟩ := hq' q' h1 h2 h3
    have back := fun y hy => (given_iff s w hm hr y).2 ⟨q, k1, k2, k3, hy⟩
    have := matches_of k4.symm x h4
    cases x with
    | interface t => obtain ⟨t', h5, h6⟩ := this; exact ⟨t', back (.interface t') h5, h6⟩
    | _ => exact back _ this

private theorem none_of {α : Type} {v : Option α} (h : ∀ x, v ≠ some x) : v = none := by
  cases v with
  | none => rfl
  | some x => exact absurd rfl (h x)

private theorem recorded_same {F G x y : Facts} {o : Object} (h : Recorded F G x y o) (e : SameAt F G o) : SameAt y x o := by
  obtain ⟨h1, h2, h3, h4⟩ := h
  obtain ⟨e1, e2, e3, e4⟩ := e
  refine ⟨?_, ?_, ?_, ?_⟩
  · rcases h1 with h | ⟨h, h'⟩
    · exact h
    · rw [h, h', e1]
  · rcases h2 with h | ⟨h, h'⟩
    · exact h
    · rw [h, h', e2]
  · rcases h3 with h | ⟨h, h'⟩
    · exact h
    · rw [h, h', e3]
  · rcases h4 with h | ⟨h, h'⟩
    · exact h
    · rw [h, h', e4]

/-- No facts are imported about a package's own objects. -/
private theorem own_same (s : Session strict imports visible ms) (w : Packages ms) (s' : Session strict imports' visible' ms') (w' : Packages ms')
    {m m' : Member} (hm : m ∈ ms) (hm' : m' ∈ ms') (he : SamePackage m m') {o : Object} (hb : Belongs m.pkg o) :
    SameAt m.pkg.env.facts m'.pkg.env.facts o := by
  have n1 := (facts_from_owner s w hm).1 o
  have n2 := (facts_from_owner s' w' hm').1 o
  have hb' := belongs_same he hb
  have e : ∀ x, ¬ m.pkg.env.facts.Has o x := fun x => n1 x hb
  have e' : ∀ x, ¬ m'.pkg.env.facts.Has o x := fun x => n2 x hb'
  exact ⟨(none_of fun x h => e (.codes x) h).trans (none_of fun x h => e' (.codes x) h).symm,
    (none_of fun x h => e (.ctor x) h).trans (none_of fun x h => e' (.ctor x) h).symm,
    (none_of fun x h => e (.errorType x) h).trans (none_of fun x h => e' (.errorType x) h).symm,
    (none_of fun x h => e (.interface x) h).trans (none_of fun x h => e' (.interface x) h).symm⟩

/-- Facts after runs which started with facts alike about all that is met. -/
private theorem after_alike (s : Session strict imports visible ms) (w : Packages ms) (s' : Session strict imports' visible' ms') (w' : Packages ms')
    {m m' : Member} (hm : m ∈ ms) (hm' : m' ∈ ms') (he : SamePackage m m')
    (hF : ∀ o, Meets m.pkg o → AlikeAt m.pkg.env.facts m'.pkg.env.facts o) :
    ∃ g, runVerify (m.pkg.given (mixed m.pkg m.pkg.env.facts m'.pkg.env.facts)) m'.schedule strict = .ok { m'.out with facts := g } ∧
      SameFacts m.out.facts g ∧ ∀ o, Meets m.pkg o ∨ Belongs m.pkg o → SameAt g m'.out.facts o := by
  classical
  have r' := s'.ran m' hm'
  rw [same_given he] at r'
  obtain ⟨g, hg, hrec⟩ := adapt (P := m.pkg) (F := m'.pkg.env.facts) r'
  refine ⟨g, hg, ?_, fun o ho => ?_⟩
  · obtain ⟨s1, k1⟩ := ran_iff.1 (s.ran m hm)
    obtain ⟨s2, k2⟩ := ran_iff.1 hg
    exact Prepared.sameFacts' (mixed_same hF) k1.toPrepared k2.toPrepared (s.fair m hm) (s'.fair m' hm') (member s w hm).objects (w.interfaces m hm)
  · refine recorded_same (hrec o) ?_
    by_cases hmet : Meets m.pkg o
    · exact mixed_met hmet
    · rcases ho with ho | hb
      · exact absurd ho hmet
      · obtain ⟨e1, e2, e3, e4⟩ := own_same s w s' w' hm hm' he hb
        obtain ⟨k1, k2, k3, k4⟩ := mixed_unmet (F₀ := m.pkg.env.facts) (F := m'.pkg.env.facts) hmet
        exact ⟨e1.symm.trans k1, e2.symm.trans k2, e3.symm.trans k3, e4.symm.trans k4⟩

/-- The facts given to and recorded by a package in both analyses. -/
private theorem both (s : Session strict imports visible ms) (w : Packages ms) (s' : Session strict imports' visible' ms') (w' : Packages ms')
    (hr : ∀ m ∈ ms, ∀ o, Meets m.pkg o → Reachable imports visible ms m o)
    (hr' : ∀ m ∈ ms', ∀ o, Meets m.pkg o → Reachable imports' visible' ms' m o)
    (hc : Complete imports ms ms') (hc' : ∀ m' ∈ ms', (∃ m ∈ ms, SamePackage m m') → ∀ q', Below imports' q' m' → ∃ q ∈ ms, SamePackage q q') :
    ∀ m ∈ ms, ∀ m' ∈ ms', SamePackage m m' →
      (∀ o, Meets m.pkg o → AlikeAt m.pkg.env.facts m'.pkg.env.facts o) ∧
      ∀ o, Meets m.pkg o ∨ Belongs m.pkg o → AlikeAt m.out.facts m'.out.facts o := by
  have key : ∀ (n : Nat) {pre m post}, pre.length = n → ms = pre ++ m :: post → ∀ m' ∈ ms', SamePackage m m' →
      (∀ o, Meets m.pkg o → AlikeAt m.pkg.env.facts m'.pkg.env.facts o) ∧
      ∀ o, Meets m.pkg o ∨ Belongs m.pkg o → AlikeAt m.out.facts m'.out.facts o := by
    intro n
    induction n using Nat.strongRecOn with
    | _ n ih =>
      intro pre m post hn e m' hm' he
      have hm : m ∈ ms := by rw [e]; simp
      have hR' : ∀ o, Meets m.pkg o → Reachable imports' visible' ms' m' o := fun o ho => hr' m' hm' o (meets_same he.symm ho)
      have owner : ∀ {q q' o}, Meets m.pkg o → q ∈ ms → q' ∈ ms' → SamePackage q q' → q ≠ m → Belongs q.pkg o → AlikeAt q.out.facts q'.out.facts o := by
        intro q q' o ho hq hq' heq hne hb
        have hbelow := below_mem s (below_of (hr m hm o ho q hq hne hb)) e
        obtain ⟨a, b, hab⟩ := List.append_of_mem hbelow
        have hlen : a.length < n := by rw [← hn, hab]; simp
        exact (ih a.length hlen (post := b ++ m :: post) rfl (by rw [e, hab]; simp) q' hq' heq).2 o (.inr hb)
      have hF : ∀ o, Meets m.pkg o → AlikeAt m.pkg.env.facts m'.pkg.env.facts o := by
        intro o ho
        refine given_alike s w s' w' hm hm' (hr m hm o ho) (hR' o ho) (fun q hq hne hb => ?_) fun q' hq' hne hb => ?_
        · obtain ⟨q', hq', heq⟩ := hc m hm ⟨m', hm', he⟩ q (below_of (hr m hm o ho q hq hne hb))
          refine ⟨q', hq', ?_, belongs_same heq hb, owner ho hq hq' heq hne hb⟩
          rintro rfl
          exact hne (unique w hq hm hb (belongs_same he.symm (belongs_same heq hb)))
        · obtain ⟨q, hq, heq⟩ := hc' m' hm' ⟨m, hm, he⟩ q' (below_of (hR' o ho q' hq' hne hb))
          have hbq := belongs_same heq.symm hb
          have hqm : q ≠ m := by
            rintro rfl
            exact hne (unique w' hq' hm' hb (belongs_same he hbq))
          exact ⟨q, hq, hqm, hbq, owner ho hq hq' heq hqm hbq⟩
      refine ⟨hF, fun o ho => ?_⟩
      obtain ⟨g, -, h1, h2⟩ := after_alike s w s' w' hm hm' he hF
      exact (alikeAt_of_sameFacts h1 o).sameAt (h2 o ho)
  intro m hm
  obtain ⟨pre, post, e⟩ := List.append_of_mem hm
  exact key _ rfl e

/-- **C63.** Two analyses of parts of a program, with packages and maps in any order, record the same facts for what a package in both parts declares
and comes across (tables of interface methods up to their order). -/
theorem facts_of_part (s : Session strict imports visible ms) (w : Packages ms) (s' : Session strict imports' visible' ms') (w' : Packages ms')
    (hr : ∀ m ∈ ms, ∀ o, Meets m.pkg o → Reachable imports visible ms m o)
    (hr' : ∀ m ∈ ms', ∀ o, Meets m.pkg o → Reachable imports' visible' ms' m o)
    (hc : Complete imports ms ms') (hc' : ∀ m' ∈ ms', (∃ m ∈ ms, SamePackage m m') → ∀ q', Below imports' q' m' → ∃ q ∈ ms, SamePackage q q')
    {m m' : Member} (hm : m ∈ ms) (hm' : m' ∈ ms') (he : SamePackage m m') {o : Object} (ho : Meets m.pkg o ∨ Belongs m.pkg o) :
    AlikeAt m.out.facts m'.out.facts o :=
  (both s w s' w' hr hr' hc hc' m hm m' hm' he).2 o ho

/-- **C49/C63.** Two analyses of parts of a program, with packages and maps in any order, report the same about each package in both parts.

Partial: as for single packages (`Run.order_independent_partial`), for packages in which neither functions with declarations nor methods looked at for
conversions reach a function literal that calls back. -/
theorem reports_of_part_partial (s : Session strict imports visible ms) (w : Packages ms) (s' : Session strict imports' visible' ms') (w' : Packages ms')
    (hr : ∀ m ∈ ms, ∀ o, Meets m.pkg o → Reachable imports visible ms m o)
    (hr' : ∀ m ∈ ms', ∀ o, Meets m.pkg o → Reachable imports' visible' ms' m o)
    (hc : Complete imports ms ms') (hc' : ∀ m' ∈ ms', (∃ m ∈ ms, SamePackage m m') → ∀ q', Below imports' q' m' → ∃ q ∈ ms, SamePackage q q')
    {m m' : Member} (hm : m ∈ ms) (hm' : m' ∈ ms') (he : SamePackage m m')
    (hl₁ : ∀ f c, Compared m.pkg f c → CallGraph.Settled (m.pkg.plan (during m.pkg m.out.facts)) f)
    (hl : ∀ f, Asked (m.pkg.at_ m.out.facts) (checks m.pkg m.out.facts) f → CallGraph.Settled (seen m.pkg m.out.facts) f) :
    m.out.tags = m'.out.tags ∧ m.out.ifaces.Perm m'.out.ifaces ∧ m.out.signatures.Perm m'.out.signatures ∧ m.out.claims.Perm m'.out.claims ∧
      m.out.bodies.Perm m'.out.bodies ∧ m.out.mismatches.Perm m'.out.mismatches ∧ m.out.conversions.Perm m'.out.conversions := by
  have hF := (both s w s' w' hr hr' hc hc' m hm m' hm' he).1
  obtain ⟨g, hg, -, -⟩ := after_alike s w s' w' hm hm' he hF
  have r := same_inputs_partial (mixed_same hF) (s.ran m hm) hg (s.fair m hm) (s'.fair m' hm') (member s w hm).objects (w.interfaces m hm) hl₁ hl
  exact ⟨r.tags, r.ifaces, r.signatures, r.claims, r.bodies, r.mismatches, r.conversions⟩

/-- **C49.** If the analysis of a program has ended for a package without a panic, so does every other analysis of a part of the program which
comes to the same package, after analysing the packages it imports, with packages and maps in any order.  `needed` are the packages directly imported.

Partial: function literals are as the parser guarantees (`Run.ValuesUncalled`). -/
theorem next_succeeds_partial (s : Session strict imports visible ms) (w : Packages ms) (s' : Session strict imports' visible' ms') (w' : Packages ms')
    (hr : ∀ m ∈ ms, ∀ o, Meets m.pkg o → Reachable imports visible ms m o)
    (hr' : ∀ m ∈ ms', ∀ o, Meets m.pkg o → Reachable imports' visible' ms' m o)
    (hc : Complete imports ms ms') (hc' : ∀ m' ∈ ms', (∃ m ∈ ms, SamePackage m m') → ∀ q', Below imports' q' m' → ∃ q ∈ ms, SamePackage q q')
    {m : Member} (hm : m ∈ ms) {F : Facts} {S : Schedule} (hS : S.Fair) {needed : Member → Prop} {seen : Member → Object → Prop}
    (known : ∀ o x, F.Has o x → ∃ q ∈ ms', needed q ∧ ∀ y, F.Has o y ↔ q.out.facts.Has o y)
    (passed : ∀ q ∈ ms', needed q → ∀ o x, seen q o → q.out.facts.Has o x → F.Has o x)
    (reach : ∀ o, Meets m.pkg o → ∀ q ∈ ms', Belongs q.pkg o → ∃ r ∈ ms', needed r ∧ seen r o ∧ (r = q ∨ Passes imports' visible' q o r))
    (apart : ∀ q ∈ ms', ∀ o, Belongs m.pkg o → ¬ Belongs q.pkg o)
    (hn : ∀ q, Below imports q m → ∃ q' ∈ ms', SamePackage q q')
    (hn' : ∀ r ∈ ms', needed r → ∀ q', q' = r ∨ Below imports' q' r → ∃ q ∈ ms, SamePackage q q')
    (hv : ∀ s out, Prepared m.pkg m.schedule strict s out → ValuesUncalled m.pkg out.facts) :
    ∃ out, runVerify (m.pkg.withImports F) S strict = .ok out := by
  have given : ∀ o, Meets m.pkg o → ∀ x, F.Has o x ↔ ∃ q ∈ ms', Belongs q.pkg o ∧ q.out.facts.Has o x := by
    intro o ho x
    constructor
    · intro h
      obtain ⟨r, hrm, -, hy⟩ := known o x h
      obtain ⟨q, hq, -, hb, hx⟩ := (facts_from_owner s' w' hrm).2 o x ((hy x).1 h)
      exact ⟨q, hq, hb, hx⟩
    · rintro ⟨q, hq, hb, hx⟩
      obtain ⟨r, hrm, h1, h2, h3⟩ := reach o ho q hq hb
      refine passed r hrm h1 o x h2 ?_
      rcases h3 with rfl | h3
      · exact hx
      · exact ((facts_travel s' w' hrm hq hb h3 x).2).2 hx
  have hF : ∀ o, Meets m.pkg o → AlikeAt m.pkg.env.facts F o := by
    intro o ho
    refine alike_of_matches (fun x hx => ?_) (fun x hx => ?_)
    · obtain ⟨q, h1, h2, h3, h4⟩ := (given_iff s w hm (hr m hm o ho) x).1 hx
      obtain ⟨q', k1, k2⟩ := hn q (below_of (hr m hm o ho q h1 h2 h3))
      have k3 := belongs_same k2 h3
      have back := fun y hy => (given o ho y).2 ⟨q', k1, k3, hy⟩
      have := matches_of (facts_of_part s w s' w' hr hr' hc hc' h1 k1 k2 (.inr h3)) x h4
      cases x with
      | interface t => obtain ⟨t', h5, h6⟩ := this; exact ⟨t', back (.interface t') h5, h6⟩
      | _ => exact back _ this
    · obtain ⟨q', h1, h3, h4⟩ := (given o ho x).1 hx
      obtain ⟨r, hrm, hnr, -, hp⟩ := reach o ho q' h1 h3
      obtain ⟨q, k1, k2⟩ := hn' r hrm hnr q' (by
        rcases hp with hp | hp
        · exact .inl hp.symm
        · exact .inr (below_of hp))
      have k3 := belongs_same k2.symm h3
      have hne : q ≠ m := by
        rintro rfl
        exact apart q' h1 o k3 h3
      have back := fun y hy => (given_iff s w hm (hr m hm o ho) y).2 ⟨q, k1, hne, k3, hy⟩
      have := matches_of (facts_of_part s w s' w' hr hr' hc hc' k1 h1 k2 (.inr k3)).symm x h4
      cases x with
      | interface t => obtain ⟨t', h5, h6⟩ := this; exact ⟨t', back (.interface t') h5, h6⟩
      | _ => exact back _ this
  obtain ⟨r, h⟩ := (same_success_partial (mixed_same hF) (s.fair m hm) hS (member s w hm).objects (w.interfaces m hm) hv).1 ⟨_, s.ran m hm⟩
  have key := unmet_imports (P := m.pkg.withImports F) (S := S) (strict := strict) (F := mixed m.pkg m.pkg.env.facts F)
    fun o ho => mixed_met (meets_withImports ho)
  revert key
  cases runVerify (m.pkg.withImports F) S strict with
  | ok out => exact fun _ => ⟨out, rfl⟩
  | error e =>
    intro key
    have key : runVerify (m.pkg.given (mixed m.pkg m.pkg.env.facts F)) S strict = .error e := key
    rw [h] at key; cases key

end

/-! ## Example

The packages `a`, `c`, `b` of `Props/Part.lean`, and `a`, `b` with other orders of maps. -/

namespace Example
open Linked.Example Session.Again

theorem same_as {m m' : Member} (hm : m ∈ all) (hm' : m' ∈ [a', b']) (h : SamePackage m m') : (m = a ∧ m' = a') ∨ (m = b ∧ m' = b') := by
  have h := same_funcs h
  simp only [all, List.mem_cons, List.not_mem_nil, or_false] at hm hm'
  rcases hm with rfl | rfl | rfl <;> rcases hm' with rfl | rfl <;> first | exact .inl ⟨rfl, rfl⟩ | exact .inr ⟨rfl, rfl⟩ | cases h

theorem reachable' : ∀ m ∈ [a', b'], ∀ o, Meets m.pkg o → Reachable (fun m q => m = b' ∧ q = a') Linked.Example.visible [a', b'] m o := by
  intro m hm o ho q hq hne hb
  simp only [List.mem_cons, List.not_mem_nil, or_false] at hm hq
  rcases hm with rfl | rfl <;> rcases hq with rfl | rfl
  · exact absurd rfl hne
  · have hb := b_belongs (show Belongs bPkg o from hb)
    have := meets_a ho
    simp only [List.mem_cons, List.not_mem_nil, or_false] at hb
    exfalso
    rcases hb with rfl | rfl | rfl <;> revert this <;> decide
  · exact .direct ⟨rfl, rfl⟩ trivial
  · exact absurd rfl hne

theorem complete₃ : Complete imports₃ all [a', b'] := by
  intro m hm _ q hq
  rw [below_a (fun _ _ h => h.2) hq]
  exact ⟨a', by simp, rfl⟩

theorem complete' : ∀ m' ∈ [a', b'], (∃ m ∈ all, SamePackage m m') → ∀ q', Below (fun m q => m = b' ∧ q = a') q' m' → ∃ q ∈ all, SamePackage q q' := by
  intro m' h1 h2 q' hq
  clear h1 h2
  have : q' = a' := by
    induction hq with
    | direct h => exact h.2
    | through _ _ ih => exact ih
  rw [this]
  exact ⟨a, by simp [all], rfl⟩

theorem packages' : Packages [a', b'] where
  objects := by
    intro m hm
    simp only [List.mem_cons, List.not_mem_nil, or_false] at hm
    rcases hm with rfl | rfl
    · exact packages.objects a (by simp [Linked.Example.ms])
    · exact packages.objects b (by simp [Linked.Example.ms])
  types := by
    intro m hm
    simp only [List.mem_cons, List.not_mem_nil, or_false] at hm
    rcases hm with rfl | rfl
    · exact packages.types a (by simp [Linked.Example.ms])
    · exact packages.types b (by simp [Linked.Example.ms])
  interfaces := by
    intro m hm
    simp only [List.mem_cons, List.not_mem_nil, or_false] at hm
    rcases hm with rfl | rfl
    · exact a_program
    · exact b_program
  apart := by
    have h := packages.apart
    simp only [Linked.Example.ms, List.pairwise_cons, List.mem_singleton, forall_eq, List.not_mem_nil, false_implies, implies_true, List.Pairwise.nil,
      and_true] at h ⊢
    exact h

/-- The hypotheses are met: `b` gets the same reports. -/
theorem b_reports : b.out.bodies.Perm b'.out.bodies ∧ b.out.mismatches.Perm b'.out.mismatches ∧ b.out.conversions.Perm b'.out.conversions :=
  (reports_of_part_partial session₃ packages₃ session' packages' reachable₃ reachable' complete₃ complete' (m := b) (m' := b') (by simp [all]) (by simp) rfl
    (fun f _ _ => settled_b' f) (fun f _ => settled_b f)).2.2.2.2

theorem reachable_only : ∀ m ∈ [a'], ∀ o, Meets m.pkg o → Reachable (fun _ _ => False) Linked.Example.visible [a'] m o := by
  intro m hm o _ q hq hne _
  rw [List.mem_singleton.1 hm, List.mem_singleton.1 hq] at hne
  exact absurd rfl hne

theorem session_a : Session false (fun _ _ => False) Linked.Example.visible [a'] where
  fair := fun m hm => session'.fair m (by simp [List.mem_singleton.1 hm])
  ran := fun m hm => session'.ran m (by simp [List.mem_singleton.1 hm])
  order := fun _ _ _ _ _ h => h.elim
  known := by
    intro m hm o x hx
    rw [List.mem_singleton.1 hm] at hx
    cases x <;> cases hx
  passed := fun _ _ _ h => h.elim

theorem packages_a : Packages [a'] where
  objects := fun m hm => packages'.objects m (by simp [List.mem_singleton.1 hm])
  types := fun m hm => packages'.types m (by simp [List.mem_singleton.1 hm])
  interfaces := fun m hm => packages'.interfaces m (by simp [List.mem_singleton.1 hm])
  apart := List.pairwise_singleton _ _

/-- The hypotheses are met: after `a` alone has been analysed, `b` can be. -/
theorem b_next : ∃ out, runVerify (bPkg.withImports aFacts) schedule' false = .ok out := by
  have none_below : ∀ {q m : Member}, ¬ Below (fun _ _ => False) q m := by
    intro q m h
    cases h with
    | direct h => exact h
    | through h _ => exact h
  refine next_succeeds_partial session₃ packages₃ session_a packages_a reachable₃ reachable_only ?_ ?_ (m := b) (by simp [all]) schedule'_fair
    (needed := fun q => q = a') (seen := fun _ _ => True) ?_ ?_ ?_ ?_ ?_ ?_ ?_
  · intro m hm _ q hq
    rw [below_a (fun _ _ h => h.2) hq]
    exact ⟨a', by simp, rfl⟩
  · intro m' _ _ q' hq
    exact absurd hq none_below
  · intro o x _
    exact ⟨a', by simp, rfl, fun y => a_facts o y⟩
  · rintro q _ rfl o x _ hx
    exact (a_facts o x).2 hx
  · intro o _ q hq _
    exact ⟨a', by simp, rfl, trivial, .inl (List.mem_singleton.1 hq).symm⟩
  · intro q hq o h1 h2
    rw [List.mem_singleton.1 hq] at h2
    have h1 := b_belongs h1
    have h2 := a_belongs (show Belongs aPkg o from h2)
    simp only [List.mem_cons, List.not_mem_nil, or_false] at h1
    rcases h1 with rfl | rfl | rfl <;> revert h2 <;> decide
  · intro q hq
    rw [below_a (fun _ _ h => h.2) hq]
    exact ⟨a', by simp, rfl⟩
  · rintro r _ rfl q' (rfl | h)
    · exact ⟨a, by simp [all], rfl⟩
    · exact absurd h none_below
  · intro t out hp f _ z hz
    obtain ⟨t', hb⟩ := ran_iff.1 b_ran
    have hsame := Prepared.sameFacts' (SameFacts.refl bPkg.env.facts) hb.toPrepared (out' := out) hp schedule_fair schedule_fair b_objects b_program
    have : (seen bPkg out.facts f).visits = [] := by
      rw [← seen_same hsame]
      unfold RunSpec.seen
      split
      · exact visits_b _ (.inr rfl) f
      · exact visits_b _ (.inl rfl) f
    rw [show RunSpec.seen b.pkg out.facts f = seen bPkg out.facts f from rfl, this] at hz
    cases hz

end Example
end Serum.Props.Part
