import Verif.Spec.SessionSpec
import Verif.Props.RunReports
import Verif.Props.RunExports

/-! # C41: several packages -/

namespace Serum.Props.Session
open Serum RunSpec SessionSpec

variable {P : Package} {S : Schedule} {strict : Bool} {out : Outcome}

/-- What has been imported about the objects of other packages stays. -/
theorem run_keeps (h : runVerify P S strict = .ok out) (hS : S.Fair) (ho : Objects P) (hp : Interfaces.Program P.ifaces) (ht : Run.Types P)
    {o : Object} (hb : ¬ Belongs P o) (x : Fact) : out.facts.Has o x ↔ P.env.facts.Has o x := by
  cases x with
  | codes C =>
    unfold Facts.Has
    rw [(Run.exported_codes h hS ho hp).2.2 o (fun f hf he => hb (.func hf he)) (fun d hd im him he => hb (.method hd him he))]
  | ctor n =>
    unfold Facts.Has
    rw [(Run.exported_constructors h hS ho).2 o (fun f hf he => hb (.func hf he))]
  | interface ms =>
    unfold Facts.Has
    rw [(Run.exported_interfaces_partial h hS ho hp).2 o (fun d hd he => hb (.interface hd he))]
  | errorType et =>
    obtain ⟨s, h⟩ := ran_iff.1 h
    unfold Facts.Has
    rw [(h.out_rest hS ho).2.1, (tag_types h.tag ht.distinct ht.named).1 o (fun spec hs he => hb (.type hs he))]

variable {imports : Member → Member → Prop} {visible : Member → Object → Prop} {ms : List Member}

/-- The package was given no facts about its own objects, and it only knows facts recorded by the packages declaring the objects. -/
structure Good (imports : Member → Member → Prop) (m : Member) : Prop where
  objects : Objects m.pkg
  types : Run.Types m.pkg
  owner : ∀ o x, m.out.facts.Has o x → ∃ q, (q = m ∨ Below imports q m) ∧ Belongs q.pkg o ∧ q.out.facts.Has o x

theorem below_mem (s : Session strict imports visible ms) {m q : Member} (hb : Below imports q m) :
    ∀ {pre post}, ms = pre ++ m :: post → q ∈ pre := by
  induction hb with
  | direct hi => intro pre post e; exact s.order _ _ _ e _ hi
  | through hi _ ih =>
    intro pre post e
    obtain ⟨a, b, rfl⟩ := List.append_of_mem (s.order _ _ _ e _ hi)
    have := ih (pre := a) (post := b ++ _ :: post) (by simpa using e)
    simp [this]

theorem good (s : Session strict imports visible ms) (w : Packages ms) : ∀ (n : Nat) {pre m post}, pre.length = n → ms = pre ++ m :: post →
    Good imports m := by
  intro n
  induction n using Nat.strongRecOn with
  | _ n ih =>
    intro pre m post hn e
    have hm : m ∈ ms := by rw [e]; simp
    have hq : ∀ q, imports m q → Good imports q := by
      intro q hi
      obtain ⟨a, b, rfl⟩ := List.append_of_mem (s.order _ _ _ e _ hi)
      exact ih a.length (by simp at hn; omega) (post := b ++ m :: post) rfl (by rw [e]; simp)
    -- imported facts
    have himp : ∀ o x, m.pkg.env.facts.Has o x → ∃ q, Below imports q m ∧ Belongs q.pkg o ∧ q.out.facts.Has o x := by
      intro o x hx
      obtain ⟨q, hi, hy⟩ := s.known m hm o x hx
      obtain ⟨r, hr, hb, hx⟩ := (hq q hi).owner o x ((hy x).1 hx)
      refine ⟨r, ?_, hb, hx⟩
      rcases hr with rfl | hr
      · exact .direct hi
      · exact .through hi hr
    have hown : ∀ o x, Belongs m.pkg o → ¬ m.pkg.env.facts.Has o x := by
      intro o x hb hx
      obtain ⟨q, hq, hb', -⟩ := himp o x hx
      have hqm := below_mem s hq e
      have ha := w.apart
      rw [e, List.pairwise_append] at ha
      exact ha.2.2 q hqm m (by simp) o hb' hb
    have none_of : ∀ {α : Type} {v : Option α}, (∀ a, v ≠ some a) → v = none := by
      intro α v h
      cases v with
      | none => rfl
      | some a => exact absurd rfl (h a)
    have h0 := w.objects m hm
    have t0 := w.types m hm
    have objects : Objects m.pkg :=
      { funcs := h0.funcs, distinct := h0.distinct, methods := h0.methods, apart := h0.apart, interfaces := h0.interfaces
        imported := fun f hf => ⟨none_of fun C h => hown _ (.codes C) (.func hf rfl) h, none_of fun n h => hown _ (.ctor n) (.func hf rfl) h⟩
        importedMethods := fun d hd im him => none_of fun C h => hown _ (.codes C) (.method hd him rfl) h
        importedInterfaces := fun d hd => none_of fun ms h => hown _ (.interface ms) (.interface hd rfl) h
        importedTables := by
          intro o tab h
          obtain ⟨q, hi, hy⟩ := s.known m hm o (.interface tab) h
          have hx := (hy (.interface tab)).1 h
          have hqp := s.order _ _ _ e _ hi
          have hqm : q ∈ ms := by rw [e]; simp [hqp]
          have gq := hq q hi
          obtain ⟨r, hr, hb, hx⟩ := gq.owner o _ hx
          have hrm : r ∈ ms ∧ Good imports r := by
            rcases hr with rfl | hr
            · exact ⟨hqm, gq⟩
            · have := below_mem s (.through hi hr) e
              refine ⟨by rw [e]; simp [this], ?_⟩
              obtain ⟨a, b, rfl⟩ := List.append_of_mem this
              exact ih a.length (by simp at hn; omega) (post := b ++ m :: post) rfl (by rw [e]; simp)
          have hi := Run.interfaces_exact_partial (s.ran r hrm.1) (s.fair r hrm.1) hrm.2.objects (w.interfaces r hrm.1)
          have hx : r.out.facts.interface o = some tab := hx
          by_cases hd : ∃ d ∈ r.pkg.ifaces, d.obj = o
          · obtain ⟨d, hd, rfl⟩ := hd
            exact ((hi.1 d hd).2 tab hx).1
          · rw [hi.2 o fun d hd' he => hd ⟨d, hd', he⟩] at hx
            exact hrm.2.objects.importedTables o tab hx }
    have types : Run.Types m.pkg :=
      { named := t0.named, distinct := t0.distinct
        imported := fun spec hs o h => none_of fun et hx => hown o (.errorType et) (.type hs h) hx }
    refine ⟨objects, types, fun o x hx => ?_⟩
    by_cases hb : Belongs m.pkg o
    · exact ⟨m, .inl rfl, hb, hx⟩
    · rw [run_keeps (s.ran m hm) (s.fair m hm) objects (w.interfaces m hm) types hb] at hx
      obtain ⟨q, h1, h2⟩ := himp o x hx
      exact ⟨q, .inr h1, h2⟩

theorem member (s : Session strict imports visible ms) (w : Packages ms) {m : Member} (hm : m ∈ ms) : Good imports m := by
  obtain ⟨pre, post, e⟩ := List.append_of_mem hm
  exact good s w _ rfl e

theorem unique (w : Packages ms) {m q : Member} (hm : m ∈ ms) (hq : q ∈ ms) {o : Object} (h1 : Belongs m.pkg o) (h2 : Belongs q.pkg o) : m = q := by
  obtain ⟨pre, post, e⟩ := List.append_of_mem hm
  have ha := w.apart
  rw [e, List.pairwise_append, List.pairwise_cons] at ha
  rw [e, List.mem_append, List.mem_cons] at hq
  rcases hq with hq | rfl | hq
  · exact absurd h1 (ha.2.2 q hq m (by simp) o h2)
  · rfl
  · exact absurd h2 (ha.2.1.1 q hq o h1)

/-- **C41**.  No package is given facts about its own objects; and whatever a package knows about an object is what the package that
declares it has recorded for it, which is the package itself or one it imports (directly or indirectly). -/
theorem facts_from_owner (s : Session strict imports visible ms) (w : Packages ms) {m : Member} (hm : m ∈ ms) :
    (∀ o x, Belongs m.pkg o → ¬ m.pkg.env.facts.Has o x) ∧
    ∀ o x, m.out.facts.Has o x → ∃ q ∈ ms, (q = m ∨ Below imports q m) ∧ Belongs q.pkg o ∧ q.out.facts.Has o x := by
  have g := member s w hm
  obtain ⟨pre, post, e⟩ := List.append_of_mem hm
  have hmem : ∀ q, (q = m ∨ Below imports q m) → q ∈ ms := by
    rintro q (rfl | h)
    · exact hm
    · rw [e]; simp [below_mem s h e]
  refine ⟨fun o x hb hx => ?_, fun o x hx => ?_⟩
  · obtain ⟨q, hi, hy⟩ := s.known m hm o x hx
    replace hx := (hy x).1 hx
    have hqp := s.order _ _ _ e _ hi
    have hqm : q ∈ ms := by rw [e]; simp [hqp]
    obtain ⟨r, hr, hb', -⟩ := (member s w hqm).owner o x hx
    have hrp : r ∈ pre := by
      rcases hr with rfl | hr
      · exact hqp
      · exact below_mem s (.through hi hr) e
    have ha := w.apart
    rw [e, List.pairwise_append] at ha
    exact ha.2.2 r hrp m (by simp) o hb' hb
  · obtain ⟨q, h1, h2⟩ := g.owner o x hx
    exact ⟨q, hmem q h1, h1, h2⟩

/-- **C41**.  What a package has recorded for an object it declares is what every package knows that can refer to the object by its
imports, however many packages are in between. -/
theorem facts_travel (s : Session strict imports visible ms) (w : Packages ms) {m q : Member} (hm : m ∈ ms) (hq : q ∈ ms) {o : Object}
    (hb : Belongs q.pkg o) (hp : Passes imports visible q o m) (x : Fact) :
    (m.pkg.env.facts.Has o x ↔ q.out.facts.Has o x) ∧ (m.out.facts.Has o x ↔ q.out.facts.Has o x) := by
  have back : ∀ {m}, m ∈ ms → m.out.facts.Has o x → q.out.facts.Has o x := by
    intro m hm hx
    obtain ⟨r, hr, -, hb', hx⟩ := (facts_from_owner s w hm).2 o x hx
    rwa [unique w hq hr hb hb']
  have imp : ∀ {m r}, m ∈ ms → imports m r → r ∈ ms := by
    intro m r hm hi
    obtain ⟨pre, post, e⟩ := List.append_of_mem hm
    rw [e]; simp [s.order _ _ _ e _ hi]
  have back' : ∀ {m}, m ∈ ms → m.pkg.env.facts.Has o x → q.out.facts.Has o x := by
    intro m hm hx
    obtain ⟨r, hi, hy⟩ := s.known m hm o x hx
    exact back (imp hm hi) ((hy x).1 hx)
  have keeps : ∀ {m}, m ∈ ms → m ≠ q → (m.out.facts.Has o x ↔ m.pkg.env.facts.Has o x) := fun {m} hm hne =>
    run_keeps (s.ran m hm) (s.fair m hm) (member s w hm).objects (w.interfaces m hm) (member s w hm).types
      (fun hb' => hne (unique w hm hq hb' hb)) x
  have fwd : ∀ {m}, Passes imports visible q o m → m ∈ ms → q.out.facts.Has o x → m.pkg.env.facts.Has o x := by
    intro m hp
    induction hp with
    | direct hi hv => intro hm hx; exact s.passed _ hm q hi o x hv hx
    | @through m r hi hv _ ih =>
      intro hm hx
      have hr := imp hm hi
      refine s.passed _ hm r hi o x hv ?_
      by_cases hrq : r = q
      · rw [hrq]; exact hx
      · exact (keeps hr hrq).2 (ih hr hx)
  have hne : m ≠ q := by
    rintro rfl
    have : Below imports m m := by
      have key : ∀ {m'}, Passes imports visible m o m' → Below imports m m' := by
        intro m' h
        induction h with
        | direct hi _ => exact .direct hi
        | through hi _ _ ih => exact .through hi ih
      exact key hp
    obtain ⟨pre, post, e⟩ := List.append_of_mem hm
    have h1 := below_mem s this e
    have ha := w.apart
    rw [e, List.pairwise_append] at ha
    exact ha.2.2 m h1 m (by simp) o hb hb
  exact ⟨⟨back' hm, fwd hp hm⟩, (keeps hm hne).trans ⟨back' hm, fwd hp hm⟩⟩

/-- **C41/C38**.  In every package that can refer to a function of another package by its imports, exactly the codes declared for the
function are known (if it is compared with its declaration at all), and its error code parameter, if it has one. -/
theorem declarations_travel (s : Session strict imports visible ms) (w : Packages ms) {m q : Member} (hm : m ∈ ms) (hq : q ∈ ms) {f : FnId}
    (hf : f ∈ q.pkg.funcs) (hp : Passes imports visible q (q.pkg.env.funcObj f) m) :
    (∀ C, m.pkg.env.facts.codes (q.pkg.env.funcObj f) = some C ↔ ∃ c, Compared q.pkg f c ∧ C = c.codes) ∧
    (∀ n, m.pkg.env.facts.ctor (q.pkg.env.funcObj f) = some n ↔ ∃ c p, Compared q.pkg f c ∧ c.param = some p ∧ n = p.position) := by
  have g := member s w hq
  refine ⟨fun C => ?_, fun n => ?_⟩
  · rw [← (Run.exported_codes (s.ran q hq) (s.fair q hq) g.objects (w.interfaces q hq)).1 f hf C]
    exact (facts_travel s w hm hq (.func hf rfl) hp (.codes C)).1
  · rw [← (Run.exported_constructors (s.ran q hq) (s.fair q hq) g.objects).1 f hf n]
    exact (facts_travel s w hm hq (.func hf rfl) hp (.ctor n)).1

/-- **C41**.  A package that knows anything about an object of another package knows everything recorded for it. -/
theorem facts_complete (s : Session strict imports visible ms) (w : Packages ms) {m : Member} (hm : m ∈ ms) {o : Object} {x : Fact}
    (hx : m.out.facts.Has o x) : ∃ q ∈ ms, Belongs q.pkg o ∧ ∀ y, m.out.facts.Has o y ↔ q.out.facts.Has o y := by
  have key : ∀ (n : Nat) {pre m post}, pre.length = n → ms = pre ++ m :: post → ∀ {x}, m.out.facts.Has o x →
      ∃ q ∈ ms, Belongs q.pkg o ∧ ∀ y, m.out.facts.Has o y ↔ q.out.facts.Has o y := by
    intro n
    induction n using Nat.strongRecOn with
    | _ n ih =>
      intro pre m post hn e x hx
      have hm : m ∈ ms := by rw [e]; simp
      by_cases hb : Belongs m.pkg o
      · exact ⟨m, hm, hb, fun y => .rfl⟩
      · have hk := run_keeps (s.ran m hm) (s.fair m hm) (member s w hm).objects (w.interfaces m hm) (member s w hm).types hb
        obtain ⟨r, hi, hy⟩ := s.known m hm o x ((hk x).1 hx)
        obtain ⟨a, b, rfl⟩ := List.append_of_mem (s.order _ _ _ e _ hi)
        obtain ⟨q, hq, hbq, hz⟩ := ih a.length (by simp at hn; omega) (post := b ++ m :: post) rfl (by rw [e]; simp) ((hy x).1 ((hk x).1 hx))
        exact ⟨q, hq, hbq, fun y => (hk y).trans ((hy y).trans (hz y))⟩
  obtain ⟨pre, post, e⟩ := List.append_of_mem hm
  exact key _ rfl e hx

/-- **C41/C20**.  What is recorded for the functions of a package depends only on that package: neither on the other packages of the
program, nor on their order, nor on the flag `-strict`. -/
theorem unrelated_packages {strict' : Bool} {imports' : Member → Member → Prop} {visible' : Member → Object → Prop} {ms' : List Member}
    (s : Session strict imports visible ms) (w : Packages ms) (s' : Session strict' imports' visible' ms') (w' : Packages ms')
    {m m' : Member} (hm : m ∈ ms) (hm' : m' ∈ ms') (he : alone m.pkg = alone m'.pkg) {f : FnId} (hf : f ∈ m.pkg.funcs) :
    m.out.facts.codes (m.pkg.env.funcObj f) = m'.out.facts.codes (m.pkg.env.funcObj f) ∧
    m.out.facts.ctor (m.pkg.env.funcObj f) = m'.out.facts.ctor (m.pkg.env.funcObj f) := by
  have hc : ∀ c, Compared m.pkg f c ↔ Compared m'.pkg f c := fun c => by
    rw [show Compared m.pkg f c = Compared (alone m.pkg) f c from rfl, he]; rfl
  have hf' : f ∈ m'.pkg.funcs := by
    have : (alone m.pkg).funcs = (alone m'.pkg).funcs := by rw [he]
    exact this ▸ hf
  have ho : m.pkg.env.funcObj f = m'.pkg.env.funcObj f := by
    have : (alone m.pkg).env.funcObj = (alone m'.pkg).env.funcObj := by rw [he]
    exact congrFun this f
  have e1 := (Run.exported_codes (s.ran m hm) (s.fair m hm) (member s w hm).objects (w.interfaces m hm)).1 f hf
  have e2 := (Run.exported_codes (s'.ran m' hm') (s'.fair m' hm') (member s' w' hm').objects (w'.interfaces m' hm')).1 f hf'
  have c1 := (Run.exported_constructors (s.ran m hm) (s.fair m hm) (member s w hm).objects).1 f hf
  have c2 := (Run.exported_constructors (s'.ran m' hm') (s'.fair m' hm') (member s' w' hm').objects).1 f hf'
  rw [← ho] at e2 c2
  constructor
  · refine Option.ext fun C => ?_
    rw [e1, e2]; simp only [hc]
  · refine Option.ext fun n => ?_
    rw [c1, c2]; simp only [hc]

end Serum.Props.Session
