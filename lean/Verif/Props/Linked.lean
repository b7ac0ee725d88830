import Verif.Spec.Linked
import Verif.Props.Session

/-! # C42: a program whose packages are accepted returns only declared errors -/

namespace Serum.Props.Linked
open Serum RunSpec SessionSpec Linked Runtime ConvSpec

variable {U : Universe} {ms : List Member} {calls : Member → CallKind} {strict : Bool} {imports : Member → Member → Prop}
  {visible : Member → Object → Prop} {X : Member → Extra}

/-- What happens in calls of functions known by their declaration does not matter for whether a function is in scope. -/
theorem inScope_declared {env : Env} {X : Extra} {f : FnId} {D : Object → GoString → Obj → Prop} (h : Soundness.InScope env X f) :
    Soundness.InScope env { X with declared := D } f := by
  obtain ⟨body, h1, h2, h3, h4⟩ := h
  exact ⟨body, h1, h2,
    ⟨h3.nilVars, h3.nilRefs, h3.nilParam, h3.nilCalled, h3.selectors, h3.variables, h3.values, h3.params, h3.literals, h3.addresses,
      h3.conversions, h3.callees, h3.functions⟩,
    ⟨h4.plain, h4.zero, h4.stores, h4.derefs, h4.deferred, h4.conversions, h4.callees, h4.constructors, h4.called, h4.calledClean,
      h4.param, h4.paramClean⟩⟩

theorem pre_mem {pre post : List Member} {m : Member} (e : ms = pre ++ m :: post) {q : Member} (h : q ∈ pre) : q ∈ ms := by
  rw [e]; simp [h]

section
variable (s : Session strict imports visible ms) (w : Packages ms)
include s w

theorem recorded_of_known {m : Member} (hm : m ∈ ms) {o : Object} {x : Fact} (h : m.out.facts.Has o x) : Recorded ms o x := by
  obtain ⟨q, hq, -, hb, hx⟩ := (Session.facts_from_owner s w hm).2 o x h
  exact ⟨q, hq, hb, hx⟩

theorem known_of_refers {m : Member} (hm : m ∈ ms) {o : Object} (hr : Refers ms imports visible m o) {x : Fact} (h : Recorded ms o x) :
    m.out.facts.Has o x := by
  obtain ⟨q, hq, hb, hx⟩ := h
  rcases hr q hq hb with rfl | hp
  · exact hx
  · exact (Session.facts_travel s w hm hq hb hp x).2.2 hx

/-- An interface recorded for an object of a package is one of its declared interfaces, and its entries are its error methods. -/
theorem recorded_interface {o : Object} {tab : List (GoString × CodeSet)} {k : Member} (hk : k ∈ ms) (hb : Belongs k.pkg o)
    (h : k.out.facts.interface o = some tab) : ∃ d ∈ k.pkg.ifaces, d.obj = o ∧
      ∀ name S, (name, S) ∈ tab → IfaceSpec.Has k.pkg.env k.pkg.ifaces d name S := by
  have g := Session.member s w hk
  have hi := Run.exported_interfaces_partial (s.ran k hk) (s.fair k hk) g.objects (w.interfaces k hk)
  by_cases hd : ∃ d ∈ k.pkg.ifaces, d.obj = o
  · obtain ⟨d, hd, rfl⟩ := hd
    exact ⟨d, hd, rfl, ((hi.1 d hd).2 tab h).2.2.1⟩
  · rw [hi.2 o fun d hd' he => hd ⟨d, hd', he⟩] at h
    exact ((Session.facts_from_owner s w hk).1 o (.interface tab) hb h).elim

/-- Conversely, its error methods are its entries. -/
theorem interface_recorded {k : Member} (hk : k ∈ ms) {d : IfaceDecl} (hd : d ∈ k.pkg.ifaces) {name : GoString} {S : CodeSet}
    (h : IfaceSpec.Has k.pkg.env k.pkg.ifaces d name S) : ∃ tab S', k.out.facts.interface d.obj = some tab ∧ (name, S') ∈ tab ∧
      (Linked.Compatible k → IfaceSpec.Same S' S) := by
  have g := Session.member s w hk
  have hi := Run.exported_interfaces_partial (s.ran k hk) (s.fair k hk) g.objects (w.interfaces k hk)
  obtain ⟨tab, ht⟩ := (hi.1 d hd).1.2 ⟨name, S, h⟩
  obtain ⟨-, h2, -, -, h5⟩ := (hi.1 d hd).2 tab ht
  obtain ⟨S', hS'⟩ := (h2 name).2 ⟨S, h⟩
  exact ⟨tab, S', ht, hS', fun hc => h5 hc name S' S hS' h⟩

/-- An interface that declares codes for a method has the method. -/
theorem has_method (ht : TypeChecked U ms calls imports visible) (hl : Linked.Supported U ms calls) : ∀ (n : Nat) {pre m post}, pre.length = n →
    ms = pre ++ m :: post → ∀ {d : IfaceDecl} {name : GoString} {S : CodeSet}, IfaceSpec.Has m.pkg.env m.pkg.ifaces d name S → d ∈ m.pkg.ifaces →
    ∃ q, U.methods (.named d.obj) name = some q := by
  intro n
  induction n using Nat.strongRecOn with
  | _ n ihn =>
    intro pre m post hn e d name S h
    have hm : m ∈ ms := by rw [e]; simp
    induction h with
    | own h =>
      intro hd
      obtain ⟨im, -, -, -, him, rfl, -⟩ := h
      exact ht.own m hm _ hd im him
    | @embeds d d' id name S hel hd' h ih =>
      intro hd
      obtain ⟨q, hq⟩ := ih hd'
      refine ht.embedded m hm _ hd _ hel name q ?_
      rw [show (Embedded.name id d'.name).id = id from rfl, hl.embedded m hm _ hd id _ hd' hel]
      exact hq
    | @imports d id tab name S hel hr hmem =>
      intro hd
      obtain ⟨o, ho, hf⟩ := hr
      obtain ⟨k, hi, hy⟩ := s.known m hm o (.interface tab) hf
      have hk := s.order _ _ _ e _ hi
      obtain ⟨r, hr, hb, hx⟩ := (Session.member s w (pre_mem e hk)).owner o _ ((hy (.interface tab)).1 hf)
      have hrp : r ∈ pre := by
        rcases hr with rfl | hr
        · exact hk
        · exact Session.below_mem s (.through hi hr) e
      obtain ⟨d', hd', rfl, hall⟩ := recorded_interface s w (pre_mem e hrp) hb hx
      obtain ⟨a, b, rfl⟩ := List.append_of_mem hrp
      obtain ⟨q, hq⟩ := ihn a.length (by simp at hn; omega) (post := b ++ m :: post) rfl (by rw [e]; simp) (hall name S hmem) hd'
      obtain ⟨o', ho', -⟩ := ht.qualified m hm _ hd id hel
      rw [ho'] at ho
      cases ho
      refine ht.embedded m hm _ hd _ hel name q ?_
      rw [show (Embedded.qualified id).id = id from rfl, ho']
      exact hq

/-- If a method of an interface has declared codes, the interface declares them. -/
theorem method_declared (ht : TypeChecked U ms calls imports visible) (hl : Linked.Supported U ms calls) (hc : ∀ m ∈ ms, Linked.Compatible m) :
    ∀ (n : Nat) {pre m post}, pre.length = n → ms = pre ++ m :: post → ∀ (d : IfaceDecl), d ∈ m.pkg.ifaces → ∀ {name : GoString} {q : Object} {S : CodeSet},
    U.methods (.named d.obj) name = some q → Recorded ms q (.codes S) →
    ∃ S', IfaceSpec.Has m.pkg.env m.pkg.ifaces d name S' ∧ IfaceSpec.Same S' S := by
  intro n
  induction n using Nat.strongRecOn with
  | _ n ihn =>
    intro pre m post hn e
    have hm : m ∈ ms := by rw [e]; simp
    have g := Session.member s w hm
    obtain ⟨rank, hrank⟩ := (w.interfaces m hm).acyclic
    have key : ∀ (r : Nat) (d : IfaceDecl), rank d.name = r → d ∈ m.pkg.ifaces → ∀ {name : GoString} {q : Object} {S : CodeSet},
        U.methods (.named d.obj) name = some q → Recorded ms q (.codes S) →
        ∃ S', IfaceSpec.Has m.pkg.env m.pkg.ifaces d name S' ∧ IfaceSpec.Same S' S := by
      intro r
      induction r using Nat.strongRecOn with
      | _ r ihr =>
        intro d hr hd name q S hq hS
        rcases ht.only m hm d hd name q hq with ⟨im, him, rfl, rfl⟩ | ⟨em, hel, hq'⟩
        · obtain ⟨k, hk, hb, hx⟩ := hS
          have : k = m := Session.unique w hk hm hb (.method hd him rfl)
          subst this
          obtain ⟨r, init, last, h1, h2, h3, h4, h5, rfl⟩ :=
            ((Run.exported_codes (s.ran k hk) (s.fair k hk) g.objects (w.interfaces k hk)).2.1 d hd im him S).1 hx
          exact ⟨_, .own ⟨im, r, _, last, him, rfl, h1, by simp, h2, h3, h4, h5, rfl⟩, fun _ => .rfl⟩
        · have hfound := hl.found m hm d hd em hel name q S hq' hS
          cases em with
          | name id nm =>
            obtain ⟨d', hd', rfl⟩ := hfound
            rw [show (Embedded.name id d'.name).id = id from rfl, hl.embedded m hm d hd id d' hd' hel] at hq'
            obtain ⟨S', h1, h2⟩ := ihr _ (by rw [← hr]; exact hrank d hd d' hd' id hel) d' rfl hd' hq' hS
            exact ⟨S', .embeds hel hd' h1, h2⟩
          | qualified id =>
            obtain ⟨k, hk, d', hd', htyp⟩ := hfound
            rw [show (Embedded.qualified id).id = id from rfl, htyp] at hq'
            obtain ⟨o, ho, href⟩ := ht.qualified m hm d hd id hel
            rw [htyp] at ho
            cases ho
            have hp := href k hk (.interface hd' rfl)
            have hkp : k ∈ pre := by
              have key : ∀ {m'}, Passes imports visible k d'.obj m' → Below imports k m' := by
                intro m' h
                induction h with
                | direct hi _ => exact .direct hi
                | through hi _ _ ih => exact .through hi ih
              exact Session.below_mem s (key hp) e
            obtain ⟨a, b, rfl⟩ := List.append_of_mem hkp
            obtain ⟨S', h1, h2⟩ := ihn a.length (by simp at hn; omega) (post := b ++ m :: post) rfl (by rw [e]; simp) d' hd' hq' hS
            obtain ⟨tab, S'', h3, h4, h5⟩ := interface_recorded s w hk hd' h1
            have h6 := (Session.facts_travel s w hm hk (.interface hd' rfl) hp (.interface tab)).1.2 h3
            exact ⟨S'', .imports hel ⟨d'.obj, by rw [htyp]; rfl, h6⟩ h4, fun c => (h5 (hc k hk) c).trans (h2 c)⟩
    exact fun d hd => key _ d rfl hd

/-- What an interface declares for a method is what is declared for the method itself. -/
theorem coherent (ht : TypeChecked U ms calls imports visible) (hl : Linked.Supported U ms calls) (hc : ∀ m ∈ ms, Linked.Compatible m)
    {m : Member} (hm : m ∈ ms) {d : IfaceDecl} (hd : d ∈ m.pkg.ifaces) {name : GoString} {q : Object} {S' : CodeSet}
    (hq : U.methods (.named d.obj) name = some q) (hr : Recorded ms q (.codes S')) :
    (∃ S, Promised ms (.named d.obj) name S) ∧ ∀ S, Promised ms (.named d.obj) name S → ∀ c, c ∈ S ↔ c ∈ S' := by
  obtain ⟨pre, post, e⟩ := List.append_of_mem hm
  obtain ⟨S₀, h1, h2⟩ := method_declared s w ht hl hc _ rfl e d hd hq hr
  obtain ⟨tab, S₁, h3, h4, h5⟩ := interface_recorded s w hm hd h1
  refine ⟨⟨S₁, d.obj, tab, rfl, ⟨m, hm, .interface hd rfl, h3⟩, h4⟩, ?_⟩
  rintro S ⟨o, tab', ho, ⟨k, hk, hb, hx⟩, hmem⟩ c
  cases ho
  have : k = m := Session.unique w hk hm hb (.interface hd rfl)
  subst this
  obtain rfl : tab' = tab := Option.some.inj (Eq.trans (Eq.symm hx) h3)
  have g := Session.member s w hm
  obtain ⟨-, -, h6, -, h7⟩ := ((Run.exported_interfaces_partial (s.ran k hk) (s.fair k hk) g.objects (w.interfaces k hk)).1 d hd).2 tab' h3
  exact ((h7 (hc k hk) name S S₀ hmem h1) c).trans (h2 c)

/-- An interface that declares codes for a method is a declared one. -/
theorem promised_interface {I : GoType} (hI : U.Interface I) {name : GoString} {S : CodeSet} (h : Promised ms I name S) :
    ∃ k ∈ ms, ∃ d ∈ k.pkg.ifaces, I = .named d.obj ∧ IfaceSpec.Has k.pkg.env k.pkg.ifaces d name S := by
  obtain ⟨o, tab, ho, ⟨k, hk, hb, hx⟩, hmem⟩ := h
  obtain ⟨d, hd, rfl, hall⟩ := recorded_interface s w hk hb hx
  refine ⟨k, hk, d, hd, ?_, hall _ _ hmem⟩
  obtain ⟨n, hn⟩ := hI
  cases I with
  | named o => cases ho; rfl
  | _ => cases hn <;> cases ho

/-- A value of a type whose values are converted to an interface is acceptable for it. -/
theorem converted_acceptable (hin : ∀ m ∈ ms, Fit (X m) (calls m) m) (ht : TypeChecked U ms calls imports visible)
    {m : Member} (hm : m ∈ ms) {I J : GoType} (hne : J ≠ I) (hnil : J ≠ .untypedNil) (hc : Converted calls m I J)
    {o : Object} (hI : getNamedType I = some o) {tab : List (GoString × CodeSet)} (hr : Recorded ms o (.interface tab)) {name : GoString} {allowed : CodeSet}
    (hmem : (name, allowed) ∈ tab) {q : Object} (hq : U.methods J name = some q) {C : CodeSet} (hC : Recorded ms q (.codes C)) :
    ∀ c ∈ C, c ∈ allowed := by
  intro c hc'
  refine Classical.byContradiction fun hno => ?_
  have hi : IsErrorInterface (converting m) I tab := ⟨o, hI, known_of_refers s w hm (ht.target m hm I J hc o hI) hr⟩
  have hk : (converting m).facts.codes q = some C := known_of_refers s w hm (ht.source m hm I J hc name q hq) hC
  have hmo : MethodOf (converting m) J name q := .direct (by
    have : (converting m).methodSet = m.pkg.env.methodSet := rfl
    rw [this, ht.methods m hm]; exact hq)
  have g := Session.member s w hm
  obtain ⟨e, hce⟩ := hc
  rcases hin m hm with ⟨him, hsil⟩ | hplain
  case inr =>
    obtain ⟨o', -, hf⟩ := hi
    have hf : m.out.facts.interface o' = some tab := hf
    rw [hplain.interfaces o'] at hf
    cases hf
  have hmc : MethodCode (converting m) (seen m.pkg m.out.facts) J name c := .declared hmo hk hc'
  have huniq : ∀ o', MethodOf (converting m) J name o' → o' = q := by
    intro o' h
    rw [← Conv.searchMethodType_iff] at h hmo
    rw [h] at hmo; exact Option.some.inj hmo
  have hcodes : ∀ c, MethodCode (converting m) (seen m.pkg m.out.facts) J name c ↔ c ∈ C := by
    intro c
    constructor
    · intro h
      cases h with
      | declared h1 h2 h3 => rw [huniq _ h1, hk] at h2; cases h2; exact h3
      | found h1 h2 => rw [huniq _ h1, hk] at h2; cases h2
    · exact fun h => .declared hmo hk h
  obtain ⟨l, h1, h2, h3⟩ : ∃ l : List GoString, l.Nodup ∧ Reports.Ascending l ∧ ∀ c, c ∈ l ↔ c ∈ C ∧ c ∉ allowed := by
    obtain ⟨-, missing, unused, lm, -⟩ := Reports.mismatch_exact m.schedule.ifaceMatch (s.fair m hm).ifaceMatch C allowed
    exact ⟨missing, lm.1, lm.2.1, lm.2.2⟩
  have hsm : Conversions.Smuggles (converting m) (seen m.pkg m.out.facts) J name allowed l :=
    ⟨fun he => (by have := (h3 c).2 ⟨hc', hno⟩; rw [he] at this; cases this), h1, h2, fun c => by rw [h3, hcodes]⟩
  have := Run.conversion_reported_partial (s.ran m hm) (s.fair m hm) g.objects (w.interfaces m hm) him.conversions hce hne hnil hi hmem
    (fun ob f h1 h2 => by rw [huniq _ h1, hk] at h2; cases h2) hsm
  rw [hsil.conversions] at this
  cases this

/-- The codes declared for the method of a type whose values get into variables of an interface are declared by the interface. -/
theorem holds_declared (hin : ∀ m ∈ ms, Fit (X m) (calls m) m) (ht : TypeChecked U ms calls imports visible)
    (hl : Linked.Supported U ms calls) (hcomp : ∀ m ∈ ms, Linked.Compatible m) {T I : GoType} (hh : Holds U ms calls T I) : ∀ {name : GoString} {S : CodeSet}, Promised ms I name S →
    ∀ {q : Object} {C : CodeSet}, U.methods T name = some q → Recorded ms q (.codes C) → ∀ c ∈ C, c ∈ S := by
  have step : ∀ {m : Member} {I J : GoType}, m ∈ ms → Holds U ms calls T J → Converted calls m I J →
      (∀ {name : GoString} {S : CodeSet}, Promised ms J name S →
        ∀ {q : Object} {C : CodeSet}, U.methods T name = some q → Recorded ms q (.codes C) → ∀ c ∈ C, c ∈ S) →
      ∀ {name : GoString} {S : CodeSet}, Promised ms I name S →
        ∀ {q : Object} {C : CodeSet}, U.methods T name = some q → Recorded ms q (.codes C) → ∀ c ∈ C, c ∈ S := by
    intro m I J hm hJ hc ih name S hp q C hq hC c hcC
    by_cases hne : J = I
    · subst hne; exact ih hp hq hC c hcC
    · obtain ⟨S', hp'⟩ := hl.tight T J I name S m hm hJ hc hp
      have h1 := ih hp' hq hC c hcC
      have hJi : U.Interface J := by cases hJ <;> assumption
      obtain ⟨k, hk, d, hd, rfl, hhas⟩ := promised_interface s w hJi hp'
      obtain ⟨pre, post, e⟩ := List.append_of_mem hk
      obtain ⟨qJ, hqJ⟩ := has_method s w ht hl _ rfl e hhas hd
      obtain ⟨S'', hr⟩ := hl.documented T _ name S' qJ hJ hp' hqJ
      have hsame := (coherent s w ht hl hcomp hk hd hqJ hr).2 S' hp'
      obtain ⟨o, tab, hI, htab, hmem⟩ := hp
      have hnil : GoType.named d.obj ≠ .untypedNil := nofun
      exact converted_acceptable s w hin ht hm hne hnil hc hI htab hmem hqJ hr c ((hsame c).1 h1)
  induction hh with
  | @converted m I hm hT hnil hc hI =>
    intro name S hp q C hq hC
    obtain ⟨o, tab, ho, htab, hmem⟩ := hp
    exact converted_acceptable s w hin ht hm (fun he : T = I => hT (by rw [he]; exact hI)) hnil hc ho htab hmem hq hC
  | passed hm hJ hc hI ih => exact step hm hJ hc ih
  | asserted hm hJ ha hI ih =>
    intro name S hp
    exact step hm hJ (hl.assertions _ _ _ _ _ _ hm hJ ha hp) ih hp

/-- **C42**.  Consider a program made of any number of packages which import each other, and assume that the analyzer reports nothing
for any of them (except for packages like those of the standard library, which neither declare codes nor convert to interfaces that
do).  Whenever a function with a declaration is executed — calling functions of other packages, and methods of values held
by interface variables, which call others in turn, to any depth — and returns a (non-nil) error, then every code of the error is empty
or declared for the function, or it is the code given as argument (for an error constructor).

Partial: the packages have to be in scope (C24, C31), and the program must not use interfaces in the ways excluded by
`Linked.Supported`. -/
theorem linked_sound_partial (hin : ∀ m ∈ ms, Fit (X m) (calls m) m)
    (ht : TypeChecked U ms calls imports visible) (hl : Linked.Supported U ms calls) (hcomp : ∀ m ∈ ms, Linked.Compatible m) :
    ∀ (n : Nat) {m : Member}, m ∈ ms → ∀ {f : FnId} {c : FuncCodes}, Compared m.pkg f c → ∀ {arg : GoString} {o : Obj},
      Returns U ms calls X n m f arg o → ∀ {code : GoString}, o.may code → code = [] ∨ code ∈ c.codes ∨ (c.param ≠ none ∧ code = arg) := by
  intro n
  induction n with
  | zero => intro m _ f c _ arg o h; exact h.elim
  | succ n ih =>
    intro m hm f c hc arg o hr code hcode
    have g := Session.member s w hm
    rcases hin m hm with ⟨him, hsm⟩ | hplain
    case inr => exact absurd hc (hplain.functions f c)
    -- what executing a function known by its declaration returns
    have key : ∀ {q : Object} {k : Member} {gn : FnId}, Executes U ms calls q k gn → ∀ {S : CodeSet}, Recorded ms q (.codes S) →
        k ∈ ms ∧ ∃ ck, Compared k.pkg gn ck ∧ ((q = k.pkg.env.funcObj gn ∧ gn ∈ k.pkg.funcs ∧ S = ck.codes) ∨
          (ck.param = none ∧ ∀ c ∈ ck.codes, c ∈ S)) := by
      intro q k gn he
      induction he with
      | @static k gn hk hgn =>
        rintro S ⟨q, hq, hb, hx⟩
        have : q = k := Session.unique w hq hk hb (.func hgn rfl)
        subst this
        have hx : q.out.facts.codes _ = some S := hx
        have gk := Session.member s w hk
        obtain ⟨ck, hck, rfl⟩ := ((Run.exported_codes (s.ran q hk) (s.fair q hk) gk.objects (w.interfaces q hk)).1 gn hgn S).1 hx
        exact ⟨hk, ck, hck, .inl ⟨rfl, hgn, rfl⟩⟩
      | @dynamic I T name q q' k gn hI hh hT he ihe =>
        intro S hS
        obtain ⟨r, hr, d, hd, rfl⟩ := hl.named T I name q S hh hI hS
        obtain ⟨⟨S', hp⟩, hsame⟩ := coherent s w ht hl hcomp hr hd hI hS
        have hsame := hsame S' hp
        obtain ⟨C, hC⟩ := hl.declared T _ name S' q' hh hp hT
        have hsub : ∀ c ∈ C, c ∈ S := fun c hc => (hsame c).1 (holds_declared s w hin ht hl hcomp hh hp hT hC c hc)
        obtain ⟨hk, ck, hck, hcase⟩ := ihe hC
        refine ⟨hk, ck, hck, .inr ?_⟩
        rcases hcase with ⟨hq', hgn, rfl⟩ | ⟨h1, h2⟩
        · refine ⟨?_, hsub⟩
          cases hpar : ck.param with
          | none => rfl
          | some p =>
            exfalso
            have gk := Session.member s w hk
            have hct := ((Run.exported_constructors (s.ran k hk) (s.fair k hk) gk.objects).1 gn hgn p.position).2 ⟨ck, p, hck, hpar, rfl⟩
            exact hl.constructors T _ name S' q' p.position hh hp hT (by rw [hq']; exact ⟨k, hk, .func hgn rfl, hct⟩)
        · exact ⟨h1, fun c hc => hsub c (h2 c hc)⟩
    refine Run.silent_declared_partial (s.ran m hm) (s.fair m hm) g.objects (w.interfaces m hm) him.ascii
      (X := { X m with declared := fun q a o => ∃ k g, Executes U ms calls q k g ∧ Returns U ms calls X n k g a o }) him.foreign ?_
      (fun f _ => by simp [reportedIn, hsm.bodies]) (fun f hf => inScope_declared (him.functions f ⟨_, _, hc, hf⟩)) (him.literals _ _ hc) hc
      (fun text => by rw [hsm.mismatches]; simp) hr hcode
    -- declarations are kept
    rintro q S a o hq ⟨k, gn, he, hret⟩ code hcode
    have hq' : m.out.facts.codes q = some S := by
      have hq : (during m.pkg m.out.facts).codes q = some S := hq
      unfold during at hq
      dsimp only at hq
      split at hq
      · cases hq
      · exact hq
    obtain ⟨hk, ck, hck, hcase⟩ := key he (recorded_of_known s w hm (x := .codes S) hq')
    rcases ih hk hck hret hcode with h | h | ⟨h, rfl⟩
    · exact .inl h
    · rcases hcase with ⟨-, -, rfl⟩ | ⟨-, h2⟩
      · exact .inr (.inl h)
      · exact .inr (.inl (h2 _ h))
    · rcases hcase with ⟨rfl, hgn, -⟩ | ⟨h1, -⟩
      · refine .inr (.inr ⟨?_, rfl⟩)
        cases hpar : ck.param with
        | none => exact absurd hpar h
        | some p =>
          have gk := Session.member s w hk
          have hct := ((Run.exported_constructors (s.ran k hk) (s.fair k hk) gk.objects).1 gn hgn p.position).2 ⟨ck, p, hck, hpar, rfl⟩
          obtain ⟨r, hr, hb, hy⟩ := Session.facts_complete s w hm (x := .codes S) hq'
          have : r = k := Session.unique w hr hk hb (.func hgn rfl)
          subst this
          have hm' : m.out.facts.Has _ (.ctor p.position) := (hy (.ctor p.position)).2 hct
          have hm' : m.out.facts.ctor _ = some p.position := hm'
          have he : (comparing m).facts.ctor = m.out.facts.ctor := rfl
          rw [he, hm']; simp
      · exact absurd h1 h

end

end Serum.Props.Linked
