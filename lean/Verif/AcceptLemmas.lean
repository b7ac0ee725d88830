import Verif.Spec.AcceptSpec
import Verif.ConversionWalk
import Verif.CallGraphTwo
import Verif.Props.Reports

/-! # Executing the checks -/

namespace Serum
namespace Conv
open ConvSpec Props.Reports

variable {D : Type} {env : Env} {plan : FnId → Plan FnId D} {o : Orders} {fuel : Nat} {G : FnId → Prop}

/-- The orders enumerate what they are given. -/
structure Orders.Fair (o : Orders) : Prop where
  methods : ∀ ms, (o.methods ms).Perm ms
  diff : IsOrder o.diff
  slice : IsOrder o.slice

/-- Every method object is declared at most once. -/
def DeclaredOnce (env : Env) : Prop := ∀ m f g, f ∈ env.methods m → g ∈ env.methods m → env.funcObj f = env.funcObj g → f = g

theorem searchMethodType_iff {T : GoType} {m : GoString} {ob : Object} :
    env.searchMethodType T m = some ob ↔ MethodOf env T m ob := by
  unfold Env.searchMethodType
  cases h : env.methodSet T m with
  | some o' =>
    simp only [Option.some.injEq]
    exact ⟨fun he => .direct (by rw [h, he]), fun hm => by
      cases hm with
      | direct h' => rw [h] at h'; cases h'; rfl
      | pointer h' => rw [h] at h'; cases h'⟩
  | none =>
    cases T with
    | pointer t =>
      simp only [reduceCtorEq, false_iff]
      intro hm
      cases hm with
      | direct h' => rw [h] at h'; cases h'
      | pointer _ h' => exact h' t rfl
    | _ =>
      refine ⟨fun he => .pointer h (by simp) he, fun hm => ?_⟩
      cases hm with
      | direct h' => rw [h] at h'; cases h'
      | pointer _ _ h' => exact h'

theorem searchMethod_some {T : GoType} {m : GoString} {f : FnId} {ob : Object} (hm : env.searchMethodType T m = some ob)
    (h : env.searchMethod T m = some f) : Declares env f m ob := by
  unfold Env.searchMethod at h
  split at h
  · cases h
  · rw [hm] at h
    simp only at h
    have h1 := List.find?_some h
    exact ⟨List.mem_of_find?_eq_some h, by simpa using h1⟩

theorem searchMethod_none {T : GoType} {m : GoString} {ob : Object} (hm : env.searchMethodType T m = some ob)
    (h : env.searchMethod T m = none) (f : FnId) : ¬ Declares env f m ob := by
  rintro ⟨h1, h2⟩
  unfold Env.searchMethod at h
  split at h
  · rename_i he; rw [he] at h1; cases h1
  · rw [hm] at h
    simp only [List.find?_eq_none] at h
    exact h f h1 (by simp [h2])

/-- If the codes of method `m` of type `T` have to be found in a body, then in the body of a function in `G`. -/
def MethodIn (env : Env) (G : FnId → Prop) (T : GoType) (m : GoString) : Prop :=
  ∀ ob f, MethodOf env T m ob → env.facts.codes ob = none → Declares env f m ob → G f

/-- The codes a method is compared with are known codes of it, and, for functions in `G`, all of them. -/
theorem methodCodes_spec (hone : DeclaredOnce env) (hG : ∀ x y, G x → Calls plan x y → G y)
    (hl : ∀ f, G f → ∀ z ∈ (plan f).visits, ¬ Reach (Calls plan) z f)
    {T : GoType} {m : GoString} {st : Search FnId D} (hinv : Search.InvG G plan [] st) {S : CodeSet} {st' : Search FnId D}
    (h : methodCodes env plan fuel T m st = .ok (S, st')) :
    Search.InvG G plan [] st' ∧ ((∀ c ∈ S, MethodCode env plan T m c) ∧ (MethodIn env G T m → ∀ c, MethodCode env plan T m c → c ∈ S)) ∧
      ∀ x, st.scc.Vis x → st'.scc.Vis x := by
  unfold methodCodes at h
  cases hs : env.searchMethodType T m with
  | none => rw [hs] at h; cases h
  | some ob =>
    simp only [hs] at h
    have hmo : MethodOf env T m ob := searchMethodType_iff.1 hs
    have huniq : ∀ ob', MethodOf env T m ob' → ob' = ob := by
      intro ob' h'
      rw [← searchMethodType_iff, hs] at h'; cases h'; rfl
    cases hf : env.facts.codes ob with
    | some S' =>
      simp only [hf] at h
      cases h
      refine ⟨hinv, ⟨fun c hc => .declared hmo hf hc, fun _ c hc => ?_⟩, fun x hx => hx⟩
      cases hc with
      | declared h1 h2 h3 => rw [huniq _ h1, hf] at h2; cases h2; exact h3
      | found h1 h2 => rw [huniq _ h1, hf] at h2; cases h2
    | none =>
      simp only [hf] at h
      cases hd : env.searchMethod T m with
      | none =>
        simp only [hd] at h
        cases h
        refine ⟨hinv, ⟨fun c hc => (nomatch hc), fun _ c hc => ?_⟩, fun x hx => hx⟩
        cases hc with
        | declared h1 h2 => rw [huniq _ h1, hf] at h2; cases h2
        | found h1 h2 h3 => rw [huniq _ h1] at h3; exact absurd h3 (searchMethod_none hs hd _)
      | some f =>
        simp only [hd] at h
        have hdecl := searchMethod_some hs hd
        have h1 := Search.findCached_specG hG hl fuel f st hinv
        rw [h] at h1
        obtain ⟨h1, h2, h3⟩ := h1
        refine ⟨h1, ⟨fun c hc => .found hmo hf hdecl (h1.sound _ _ h2 c hc), fun hin c hc => ?_⟩, fun x hx => (h3 x).2 (.inl hx)⟩
        refine (h1.codes (hin ob f hmo hf hdecl) h2 c).2 ?_
        cases hc with
        | declared h4 h5 => rw [huniq _ h4, hf] at h5; cases h5
        | found h4 h5 h6 h7 =>
          rw [huniq _ h4] at h6
          rw [hone m f _ hdecl.1 h6.1 (hdecl.2.trans h6.2.symm)]; exact h7

/-- The sorted duplicate-free list of the codes of a method which the interface does not declare. -/
def Excess (env : Env) (plan : FnId → Plan FnId D) (T : GoType) (m : GoString) (allowed : CodeSet) (l : List GoString) : Prop :=
  l.Nodup ∧ Ascending l ∧ ∀ c, c ∈ l ↔ MethodCode env plan T m c ∧ c ∉ allowed

/-- A sorted duplicate-free list of codes of a method which the interface does not declare: of all, for functions in `G`. -/
def Caught (env : Env) (plan : FnId → Plan FnId D) (G : FnId → Prop) (T : GoType) (m : GoString) (allowed : CodeSet) (l : List GoString) : Prop :=
  l.Nodup ∧ Ascending l ∧ (∀ c ∈ l, MethodCode env plan T m c ∧ c ∉ allowed) ∧
    (MethodIn env G T m → ∀ c, MethodCode env plan T m c → c ∉ allowed → c ∈ l)

theorem Caught.excess {T : GoType} {m : GoString} {allowed : CodeSet} {l : List GoString} (h : Caught env plan G T m allowed l)
    (hin : MethodIn env G T m) : Excess env plan T m allowed l :=
  ⟨h.1, h.2.1, fun c => ⟨h.2.2.1 c, fun hc => h.2.2.2 hin c hc.1 hc.2⟩⟩

theorem unexpected_caught (ho : o.Fair) {S allowed : CodeSet} {T : GoType} {m : GoString}
    (hS : ∀ c ∈ S, MethodCode env plan T m c) (hS' : MethodIn env G T m → ∀ c, MethodCode env plan T m c → c ∈ S) (l : List GoString)
    (h : unexpectedCodes o.diff o.slice S allowed = some l) : l ≠ [] ∧ Caught env plan G T m allowed l := by
  have hl := lists_difference o.diff o.slice ho.diff ho.slice S allowed
  have hlen : (sortStrings (o.slice (CodeSet.diff (o.diff S) allowed))).length = (CodeSet.diff (o.diff S) allowed).length :=
    ((sortStrings_perm _).trans (ho.slice _)).length_eq
  unfold unexpectedCodes at h
  simp only at h
  split at h
  · rename_i hpos
    cases h
    refine ⟨?_, hl.1, hl.2.1, fun c hc => ?_, fun hin c hc hno => (hl.2.2 c).2 ⟨hS' hin c hc, hno⟩⟩
    · intro hn
      rw [hn] at hlen
      simp at hlen; omega
    · have := (hl.2.2 c).1 hc
      exact ⟨hS c this.1, this.2⟩
  · cases h

theorem unexpected_iff (ho : o.Fair) {S allowed : CodeSet} {T : GoType} {m : GoString}
    (hS : ∀ c, c ∈ S ↔ MethodCode env plan T m c) (l : List GoString) :
    unexpectedCodes o.diff o.slice S allowed = some l ↔ l ≠ [] ∧ Excess env plan T m allowed l := by
  have hl := lists_difference o.diff o.slice ho.diff ho.slice S allowed
  have hlen : (sortStrings (o.slice (CodeSet.diff (o.diff S) allowed))).length = (CodeSet.diff (o.diff S) allowed).length :=
    ((sortStrings_perm _).trans (ho.slice _)).length_eq
  have hex : Excess env plan T m allowed (sortStrings (o.slice (CodeSet.diff (o.diff S) allowed))) :=
    ⟨hl.1, hl.2.1, fun c => by rw [hl.2.2 c, hS c]⟩
  have huniq : ∀ l', Excess env plan T m allowed l' → l' = sortStrings (o.slice (CodeSet.diff (o.diff S) allowed)) := by
    intro l' h'
    refine ascending_unique h'.2.1 hex.2.1 ?_
    rw [List.perm_ext_iff_of_nodup h'.1 hex.1]
    intro c; rw [h'.2.2, hex.2.2]
  unfold unexpectedCodes
  simp only
  split
  · rename_i hpos
    simp only [Option.some.injEq]
    constructor
    · rintro rfl
      refine ⟨?_, hex⟩
      intro hn
      rw [hn] at hlen
      simp at hlen; omega
    · rintro ⟨-, h'⟩; exact (huniq l h').symm
  · rename_i hpos
    simp only [reduceCtorEq, false_iff]
    rintro ⟨hne, h'⟩
    have := huniq l h'
    have hz : l.length = 0 := by rw [this, hlen]; omega
    exact hne (List.length_eq_zero_iff.1 hz)

/-- The reports of one check. -/
def ReportedFor (env : Env) (plan : FnId → Plan FnId D) (c : Check) (ms : List (GoString × CodeSet)) (r : Report) : Prop :=
  ∃ m allowed l, (m, allowed) ∈ ms ∧ l ≠ [] ∧ Excess env plan c.source m allowed l ∧
    r = ⟨c.at_, getNamedType c.target, m, l⟩

/-- What is known about a report of one check. -/
def CaughtFor (env : Env) (plan : FnId → Plan FnId D) (G : FnId → Prop) (c : Check) (ms : List (GoString × CodeSet)) (r : Report) : Prop :=
  ∃ m allowed l, (m, allowed) ∈ ms ∧ l ≠ [] ∧ Caught env plan G c.source m allowed l ∧
    r = ⟨c.at_, getNamedType c.target, m, l⟩

theorem checkMethods_spec (ho : o.Fair) (hone : DeclaredOnce env) (hG : ∀ x y, G x → Calls plan x y → G y)
    (hl : ∀ f, G f → ∀ z ∈ (plan f).visits, ¬ Reach (Calls plan) z f)
    (c : Check) : ∀ (ms : List (GoString × CodeSet)) (st : Search FnId D), Search.InvG G plan [] st → ∀ rs st',
    checkMethods env o plan fuel c ms st = .ok (rs, st') →
    Search.InvG G plan [] st' ∧ ((∀ r ∈ rs, CaughtFor env plan G c ms r) ∧
      ∀ r, ReportedFor env plan c ms r → MethodIn env G c.source r.method → r ∈ rs) ∧ ∀ x, st.scc.Vis x → st'.scc.Vis x
  | [], st, hinv, rs, st', h => by
    simp only [checkMethods] at h
    cases h
    exact ⟨hinv, ⟨fun r h => (nomatch h), fun r ⟨_, _, _, h, _⟩ => (nomatch h)⟩, fun x hx => hx⟩
  | (m, allowed) :: ms, st, hinv, rs, st', h => by
    simp only [checkMethods, bind, Except.bind] at h
    cases hm : methodCodes env plan fuel c.source m st with
    | error e => rw [hm] at h; cases h
    | ok r1 =>
      obtain ⟨S, st1⟩ := r1
      simp only [hm] at h
      obtain ⟨h1, h2, h3⟩ := methodCodes_spec hone hG hl hinv hm
      cases hr : checkMethods env o plan fuel c ms st1 with
      | error e => rw [hr] at h; cases h
      | ok r2 =>
        obtain ⟨rs2, st2⟩ := r2
        simp only [hr, pure, Except.pure] at h
        cases h
        obtain ⟨h4, h5, h6⟩ := checkMethods_spec ho hone hG hl c ms st1 h1 rs2 _ hr
        refine ⟨h4, ⟨fun r hr => ?_, fun r hr hin => ?_⟩, fun x hx => h6 x (h3 x hx)⟩
        · rcases List.mem_append.1 hr with h | h
          · cases hun : unexpectedCodes o.diff o.slice S allowed with
            | none => rw [hun] at h; cases h
            | some l =>
              rw [hun] at h
              rw [List.mem_singleton] at h
              obtain ⟨hne, hex⟩ := unexpected_caught ho h2.1 h2.2 l hun
              exact ⟨m, allowed, l, by simp, hne, hex, h⟩
          · obtain ⟨m', a', l, hmem, hx⟩ := h5.1 r h
            exact ⟨m', a', l, by simp [hmem], hx⟩
        · obtain ⟨m', a', l, hmem, hne, hex, rfl⟩ := hr
          rw [List.mem_append]
          rcases List.mem_cons.1 hmem with he | hmem
          · cases he
            refine .inl ?_
            rw [(unexpected_iff ho (fun c => ⟨h2.1 c, h2.2 hin c⟩) l).2 ⟨hne, hex⟩]
            simp
          · exact .inr (h5.2 _ ⟨m', a', l, hmem, hne, hex, rfl⟩ hin)

theorem runCheck_spec (ho : o.Fair) (hone : DeclaredOnce env) (hG : ∀ x y, G x → Calls plan x y → G y)
    (hl : ∀ f, G f → ∀ z ∈ (plan f).visits, ¬ Reach (Calls plan) z f)
    (c : Check) (st : Search FnId D) (hinv : Search.InvG G plan [] st) {rs : List Report} {st' : Search FnId D}
    (h : runCheck env o plan fuel c st = .ok (rs, st')) :
    Search.InvG G plan [] st' ∧
    ((∀ r ∈ rs, c.source ≠ c.target ∧ c.source ≠ .untypedNil ∧ CaughtFor env plan G c c.methods r) ∧
      ∀ r, c.source ≠ c.target → c.source ≠ .untypedNil → ReportedFor env plan c c.methods r → MethodIn env G c.source r.method → r ∈ rs) ∧
    ∀ x, st.scc.Vis x → st'.scc.Vis x := by
  unfold runCheck at h
  split at h
  · rename_i he
    cases h
    exact ⟨hinv, ⟨fun r h => (nomatch h), fun r h => absurd he h⟩, fun x hx => hx⟩
  · rename_i hne
    split at h
    · rename_i hn
      cases h
      exact ⟨hinv, ⟨fun r h => (nomatch h), fun r _ h => absurd hn h⟩, fun x hx => hx⟩
    · rename_i hn
      obtain ⟨h1, h2, h3⟩ := checkMethods_spec ho hone hG hl c _ st hinv rs st' h
      unfold ReportedFor CaughtFor at *
      simp only [(ho.methods c.methods).mem_iff] at h2
      exact ⟨h1, ⟨fun r hr => ⟨hne, hn, h2.1 r hr⟩, fun r _ _ h hin => h2.2 r h hin⟩, h3⟩

theorem runSteps_spec (ho : o.Fair) (hone : DeclaredOnce env) (hG : ∀ x y, G x → Calls plan x y → G y)
    (hl : ∀ f, G f → ∀ z ∈ (plan f).visits, ¬ Reach (Calls plan) z f) :
    ∀ (ss : List Step) (st : Search FnId D), Search.InvG G plan [] st → ∀ rs st', runSteps env o plan fuel ss st = .ok (rs, st') →
    Search.InvG G plan [] st' ∧
    ((∀ r ∈ rs, ∃ c, .check c ∈ ss ∧ c.source ≠ c.target ∧ c.source ≠ .untypedNil ∧ CaughtFor env plan G c c.methods r) ∧
      ∀ r c, .check c ∈ ss → c.source ≠ c.target → c.source ≠ .untypedNil → ReportedFor env plan c c.methods r →
        MethodIn env G c.source r.method → r ∈ rs) ∧ ∀ x, st.scc.Vis x → st'.scc.Vis x
  | [], st, hinv, rs, st', h => by
    simp only [runSteps] at h
    cases h
    exact ⟨hinv, ⟨fun r h => (nomatch h), fun r c h => (nomatch h)⟩, fun x hx => hx⟩
  | .panic l :: ss, st, hinv, rs, st', h => by simp only [runSteps] at h; cases h
  | .check c :: ss, st, hinv, rs, st', h => by
    simp only [runSteps, bind, Except.bind] at h
    cases hm : runCheck env o plan fuel c st with
    | error e => rw [hm] at h; cases h
    | ok r1 =>
      obtain ⟨rs1, st1⟩ := r1
      simp only [hm] at h
      obtain ⟨h1, h2, h3⟩ := runCheck_spec ho hone hG hl c st hinv hm
      cases hr : runSteps env o plan fuel ss st1 with
      | error e => rw [hr] at h; cases h
      | ok r2 =>
        obtain ⟨rs2, st2⟩ := r2
        simp only [hr, pure, Except.pure] at h
        cases h
        obtain ⟨h4, h5, h6⟩ := runSteps_spec ho hone hG hl ss st1 h1 rs2 _ hr
        refine ⟨h4, ⟨fun r hr => ?_, fun r c' hc a b hrep hin => ?_⟩, fun x hx => h6 x (h3 x hx)⟩
        · rcases List.mem_append.1 hr with h | h
          · exact ⟨c, by simp, h2.1 r h⟩
          · obtain ⟨c', hc, h⟩ := h5.1 r h
            exact ⟨c', by simp [hc], h⟩
        · rw [List.mem_append]
          rcases List.mem_cons.1 hc with he | hc
          · cases he; exact .inl (h2.2 r a b hrep hin)
          · exact .inr (h5.2 r c' hc a b hrep hin)

/-- A method whose codes were looked at has finitely many. -/
def Listed (env : Env) (plan : FnId → Plan FnId D) (T : GoType) (m : GoString) : Prop :=
  ∃ S₀ : CodeSet, ∀ c, c ∈ S₀ ↔ MethodCode env plan T m c

theorem checkMethods_listed (hone : DeclaredOnce env) (hG : ∀ x y, G x → Calls plan x y → G y)
    (hl : ∀ f, G f → ∀ z ∈ (plan f).visits, ¬ Reach (Calls plan) z f)
    (c : Check) {m : GoString} {allowed : CodeSet} (hin : MethodIn env G c.source m) :
    ∀ (l : List (GoString × CodeSet)) (st : Search FnId D) rs st', Search.InvG G plan [] st →
    (m, allowed) ∈ l → checkMethods env o plan fuel c l st = .ok (rs, st') → Listed env plan c.source m := by
  intro l
  induction l with
  | nil => intro st rs st' _ hmem; cases hmem
  | cons x l ih =>
    obtain ⟨m', a'⟩ := x
    intro st rs st' hinv hmem hrun
    simp only [checkMethods, bind, Except.bind] at hrun
    cases hmc : methodCodes env plan fuel c.source m' st with
    | error e => rw [hmc] at hrun; cases hrun
    | ok v =>
      obtain ⟨S₁, st₁⟩ := v
      simp only [hmc] at hrun
      have hsp := methodCodes_spec hone hG hl hinv hmc
      rcases List.mem_cons.1 hmem with he | hmem
      · cases he; exact ⟨S₁, fun c => ⟨hsp.2.1.1 c, hsp.2.1.2 hin c⟩⟩
      · cases hr : checkMethods env o plan fuel c l st₁ with
        | error e => rw [hr] at hrun; cases hrun
        | ok v => exact ih st₁ v.1 v.2 hsp.1 hmem hr

theorem runCheck_listed (ho : o.Fair) (hone : DeclaredOnce env) (hG : ∀ x y, G x → Calls plan x y → G y)
    (hl : ∀ f, G f → ∀ z ∈ (plan f).visits, ¬ Reach (Calls plan) z f)
    {c : Check} {st : Search FnId D} (hinv : Search.InvG G plan [] st) {rs : List Report} {st' : Search FnId D}
    (h : runCheck env o plan fuel c st = .ok (rs, st')) (hne : c.source ≠ c.target) (hnil : c.source ≠ .untypedNil)
    {m : GoString} {allowed : CodeSet} (hm : (m, allowed) ∈ c.methods) (hin : MethodIn env G c.source m) : Listed env plan c.source m := by
  unfold runCheck at h
  rw [if_neg hne] at h
  split at h
  · rename_i hn; exact absurd hn hnil
  · exact checkMethods_listed hone hG hl c hin _ _ _ _ hinv ((ho.methods c.methods).mem_iff.2 hm) h

theorem runSteps_listed (ho : o.Fair) (hone : DeclaredOnce env) (hG : ∀ x y, G x → Calls plan x y → G y)
    (hl : ∀ f, G f → ∀ z ∈ (plan f).visits, ¬ Reach (Calls plan) z f)
    {c : Check} (hne : c.source ≠ c.target) (hnil : c.source ≠ .untypedNil) {m : GoString} {allowed : CodeSet} (hm : (m, allowed) ∈ c.methods)
    (hin : MethodIn env G c.source m) :
    ∀ (ss : List Step) (st : Search FnId D), Search.InvG G plan [] st → .check c ∈ ss → ∀ rs st',
      runSteps env o plan fuel ss st = .ok (rs, st') → Listed env plan c.source m
  | [], _, _, hc, _, _, _ => (nomatch hc)
  | .panic l :: ss, st, hinv, hc, rs, st', h => by simp only [runSteps] at h; cases h
  | .check c' :: ss, st, hinv, hc, rs, st', h => by
    simp only [runSteps, bind, Except.bind] at h
    cases hr : runCheck env o plan fuel c' st with
    | error e => rw [hr] at h; cases h
    | ok r1 =>
      obtain ⟨rs1, st1⟩ := r1
      simp only [hr] at h
      rcases List.mem_cons.1 hc with he | hc
      · cases he; exact runCheck_listed ho hone hG hl hinv hr hne hnil hm hin
      · cases hr2 : runSteps env o plan fuel ss st1 with
        | error e => rw [hr2] at h; cases h
        | ok r2 => exact runSteps_listed ho hone hG hl hne hnil hm hin ss st1 (runCheck_spec ho hone hG hl c' st hinv hr).1 hc r2.1 r2.2 hr2

/-- If a method has a code which is not allowed, there is a list of all such codes. -/
theorem Listed.excess (ho : o.Fair) {T : GoType} {m : GoString} (h : Listed env plan T m) {allowed : CodeSet} {c : GoString}
    (hc : MethodCode env plan T m c) (hno : c ∉ allowed) : ∃ l, Excess env plan T m allowed l ∧ l ≠ [] := by
  obtain ⟨S₀, hS₀⟩ := h
  have hx := lists_difference o.diff o.slice ho.diff ho.slice S₀ allowed
  refine ⟨_, ⟨hx.1, hx.2.1, fun c => by rw [hx.2.2, hS₀]⟩, ?_⟩
  intro he
  have := (hx.2.2 c).2 ⟨(hS₀ c).2 hc, hno⟩
  rw [he] at this; cases this

/-! ## Checks do not crash -/

theorem methodCodes_ok (hone : DeclaredOnce env) (hv : ∀ f, (plan f).visits = []) (hp : ∀ f, (plan f).panics = false)
    {U : List FnId} (hU : ∀ f ∈ U, ∀ z ∈ (plan f).targets, z ∈ U) (hm : ∀ m, ∀ f ∈ env.methods m, f ∈ U) (hn : U.length < fuel)
    {T : GoType} {m : GoString} {st : Search FnId D} (hinv : Search.InvG (fun _ => True) plan [] st) (himp : ∃ ob, MethodOf env T m ob) :
    ∃ S st', methodCodes env plan fuel T m st = .ok (S, st') ∧ Search.InvG (fun _ => True) plan [] st' := by
  have hl : ∀ f, True → ∀ z ∈ (plan f).visits, ¬ Reach (Calls plan) z f := fun f _ z hz => by rw [hv f] at hz; cases hz
  have hG : ∀ x y, True → Calls plan x y → True := fun _ _ _ _ => trivial
  obtain ⟨ob, hob⟩ := himp
  have hs := searchMethodType_iff.2 hob
  have key : ∃ r, methodCodes env plan fuel T m st = .ok r := by
    unfold methodCodes
    rw [hs]
    simp only
    cases env.facts.codes ob with
    | some S => exact ⟨_, rfl⟩
    | none =>
      simp only
      cases hd : env.searchMethod T m with
      | none => exact ⟨_, rfl⟩
      | some f =>
        have h1 := Search.findCached_specG (G := fun _ => True) hG hl fuel f st hinv
        have h2 := Search.findCached_fuelled hU (st := st) (hm m f (searchMethod_some hs hd).1) hn
        have h3 : Search.findCached plan fuel f st ≠ .error .outOfFuel := by
          intro he; rw [he] at h2; exact h2 rfl
        obtain ⟨a, ha, -⟩ := Search.holds_ok h1 h3 hv hp
        exact ⟨a, ha⟩
  obtain ⟨⟨S, st'⟩, h⟩ := key
  exact ⟨S, st', h, (methodCodes_spec (G := fun _ => True) hone hG hl hinv h).1⟩

theorem checkMethods_ok (hone : DeclaredOnce env) (hv : ∀ f, (plan f).visits = []) (hp : ∀ f, (plan f).panics = false)
    {U : List FnId} (hU : ∀ f ∈ U, ∀ z ∈ (plan f).targets, z ∈ U) (hm : ∀ m, ∀ f ∈ env.methods m, f ∈ U) (hn : U.length < fuel) {c : Check} :
    ∀ (ms : List (GoString × CodeSet)) (st : Search FnId D), Search.InvG (fun _ => True) plan [] st →
      (∀ m S, (m, S) ∈ ms → ∃ ob, MethodOf env c.source m ob) →
      ∃ rs st', checkMethods env o plan fuel c ms st = .ok (rs, st') ∧ Search.InvG (fun _ => True) plan [] st'
  | [], st, hinv, _ => ⟨_, _, rfl, hinv⟩
  | (m, allowed) :: ms, st, hinv, himp => by
    obtain ⟨S, st1, h1, hinv1⟩ := methodCodes_ok hone hv hp hU hm hn hinv (himp m allowed (by simp))
    obtain ⟨rs, st2, h2, hinv2⟩ := checkMethods_ok (c := c) hone hv hp hU hm hn ms st1 hinv1 fun m S h => himp m S (by simp [h])
    exact ⟨_, st2, by simp only [checkMethods, bind, Except.bind, h1, h2, pure, Except.pure]; rfl, hinv2⟩

theorem runSteps_ok (ho : o.Fair) (hone : DeclaredOnce env) (hv : ∀ f, (plan f).visits = []) (hp : ∀ f, (plan f).panics = false)
    {U : List FnId} (hU : ∀ f ∈ U, ∀ z ∈ (plan f).targets, z ∈ U) (hm : ∀ m, ∀ f ∈ env.methods m, f ∈ U) (hn : U.length < fuel) :
    ∀ (ss : List Step) (st : Search FnId D), Search.InvG (fun _ => True) plan [] st → (∀ loc, .panic loc ∉ ss) →
      (∀ c, .check c ∈ ss → c.source ≠ c.target → c.source ≠ .untypedNil → ∀ m S, (m, S) ∈ c.methods → ∃ ob, MethodOf env c.source m ob) →
      ∃ rs st', runSteps env o plan fuel ss st = .ok (rs, st')
  | [], st, _, _, _ => ⟨_, _, rfl⟩
  | .panic l :: ss, st, _, hpan, _ => absurd (by simp) (hpan l)
  | .check c :: ss, st, hinv, hpan, himp => by
    have key : ∃ rs st', runCheck env o plan fuel c st = .ok (rs, st') ∧ Search.InvG (fun _ => True) plan [] st' := by
      unfold runCheck
      by_cases he : c.source = c.target
      · rw [if_pos he]; exact ⟨_, _, rfl, hinv⟩
      · rw [if_neg he]
        split
        · exact ⟨_, _, rfl, hinv⟩
        · rename_i hnil
          exact checkMethods_ok hone hv hp hU hm hn _ st hinv fun m S h =>
            himp c (by simp) he hnil m S ((ho.methods _).mem_iff.1 h)
    obtain ⟨rs1, st1, h1, hinv1⟩ := key
    obtain ⟨rs2, st2, h2⟩ := runSteps_ok ho hone hv hp hU hm hn ss st1 hinv1 (fun l h => hpan l (by simp [h]))
      fun c hc => himp c (by simp [hc])
    exact ⟨_, st2, by simp only [runSteps, bind, Except.bind, h1, h2, pure, Except.pure]; rfl⟩

/-! ## The second phase with another program -/

variable {p₁ p₂ : FnId → Plan FnId D}

theorem methodCodes_congr {T : GoType} {m : GoString} {st : Search FnId D} (h : Search.AgreeNew p₁ p₂ st) :
    methodCodes env p₁ fuel T m st = methodCodes env p₂ fuel T m st ∧ Search.Grows st (methodCodes env p₂ fuel T m st) := by
  unfold methodCodes
  cases env.searchMethodType T m with
  | none => exact ⟨rfl, fun a h => by cases h⟩
  | some ob =>
    simp only
    cases env.facts.codes ob with
    | some S => exact ⟨rfl, fun a h x hx => by cases h; exact hx⟩
    | none =>
      simp only
      cases env.searchMethod T m with
      | none => exact ⟨rfl, fun a h x hx => by cases h; exact hx⟩
      | some f => exact Search.findCached_congr fuel f st h

/-- No visited function is forgotten. -/
def GrowsR (st : Search FnId D) (r : Except Stop (List Report × Search FnId D)) : Prop :=
  ∀ a, r = .ok a → ∀ x, st.scc.Vis x → a.2.scc.Vis x

theorem checkMethods_congr {c : Check} : ∀ (ms : List (GoString × CodeSet)) (st : Search FnId D), Search.AgreeNew p₁ p₂ st →
    checkMethods env o p₁ fuel c ms st = checkMethods env o p₂ fuel c ms st ∧ GrowsR st (checkMethods env o p₂ fuel c ms st)
  | [], st, h => ⟨rfl, fun a h x hx => by cases h; exact hx⟩
  | (m, allowed) :: ms, st, h => by
    obtain ⟨h1, h2⟩ := methodCodes_congr (env := env) (fuel := fuel) (T := c.source) (m := m) h
    simp only [checkMethods, bind, Except.bind]
    rw [h1]
    cases hm : methodCodes env p₂ fuel c.source m st with
    | error e => exact ⟨rfl, fun a h => by cases h⟩
    | ok r =>
      obtain ⟨S, st1⟩ := r
      simp only
      obtain ⟨h3, h4⟩ := checkMethods_congr (c := c) ms st1 (h.mono (h2 _ hm))
      rw [h3]
      refine ⟨rfl, ?_⟩
      cases hr : checkMethods env o p₂ fuel c ms st1 with
      | error e => intro a h; cases h
      | ok r2 =>
        intro a ha x hx
        cases ha
        exact h4 _ hr x (h2 _ hm x hx)

theorem runCheck_congr {c : Check} {st : Search FnId D} (h : Search.AgreeNew p₁ p₂ st) :
    runCheck env o p₁ fuel c st = runCheck env o p₂ fuel c st ∧ GrowsR st (runCheck env o p₂ fuel c st) := by
  unfold runCheck
  split
  · exact ⟨rfl, fun a h x hx => by cases h; exact hx⟩
  · split
    · exact ⟨rfl, fun a h x hx => by cases h; exact hx⟩
    · exact checkMethods_congr _ st h

theorem runSteps_congr : ∀ (ss : List Step) (st : Search FnId D), Search.AgreeNew p₁ p₂ st →
    runSteps env o p₁ fuel ss st = runSteps env o p₂ fuel ss st ∧ GrowsR st (runSteps env o p₂ fuel ss st)
  | [], st, h => ⟨rfl, fun a h x hx => by cases h; exact hx⟩
  | .panic l :: ss, st, h => ⟨rfl, fun a h => by cases h⟩
  | .check c :: ss, st, h => by
    obtain ⟨h1, h2⟩ := runCheck_congr (env := env) (o := o) (fuel := fuel) (c := c) h
    simp only [runSteps, bind, Except.bind]
    rw [h1]
    cases hm : runCheck env o p₂ fuel c st with
    | error e => exact ⟨rfl, fun a h => by cases h⟩
    | ok r =>
      obtain ⟨rs, st1⟩ := r
      simp only
      obtain ⟨h3, h4⟩ := runSteps_congr ss st1 (h.mono (h2 _ hm))
      rw [h3]
      refine ⟨rfl, ?_⟩
      cases hr : runSteps env o p₂ fuel ss st1 with
      | error e => intro a h; cases h
      | ok r2 =>
        intro a ha x hx
        cases ha
        exact h4 _ hr x (h2 _ hm x hx)

end Conv
end Serum
