import Verif.CallGraphTwoCrash
import Verif.BodyTargets
import Verif.Props.RunOrder
import Verif.Props.Crash

/-!
# C22, C20 — when a run panics, exactly

First the declarations are read (`declarations_read`), then function bodies and conversions are looked at (`run_succeeds_iff`).  Whether
a run panics does not depend on the order of iteration (`success_order_independent_partial`).
-/

namespace Serum.Props.Run
open Serum RunSpec ConvSpec Conv Analyse

variable {P : Package} {S S' : Schedule} {strict : Bool} {s : Stages} {out : Outcome}

/-! ## Reading the declarations -/

/-- What parser and type checker guarantee for declarations: bodies are parsed programs, and return statements of `Code` methods return
one value each, or none if the result is named. -/
structure Declarations (P : Package) : Prop where
  parsed : ∀ m, Taint.BodyOk (bodyOf P m)
  arity : ∀ m ∈ P.funcs, P.decls.recv m ≠ none → P.decls.name m = b!"Code" → ∀ rs, CodeExec.Returns (bodyOf P m) rs →
    (∃ e, rs = [e]) ∨ (rs = [] ∧ ∃ i, CodeExec.NamedResult P.start m i)

theorem returning_ok {env : Env} : ∀ {fs : List FnId}, (∃ r, findErrorReturningFunctions env fs = .ok r) ↔
    ∀ f ∈ fs, (env.func f).type.results ≠ some []
  | [] => by simp [findErrorReturningFunctions]
  | f :: fs => by
    have hf : (∃ r, checkFunctionReturnsError env (env.func f).type = .ok r) ↔ (env.func f).type.results ≠ some [] := by
      unfold checkFunctionReturnsError
      cases hr : (env.func f).type.results with
      | none => simp
      | some rs =>
        cases hl : rs.getLast? with
        | none => rw [List.getLast?_eq_none_iff] at hl; subst hl; simp
        | some l =>
          have : rs ≠ [] := by rintro rfl; simp at hl
          simp only [hl, ne_eq, Option.some.injEq, this, not_false_eq_true, iff_true]
          split <;> exact ⟨_, rfl⟩
    constructor
    · rintro ⟨r, h⟩
      unfold findErrorReturningFunctions at h
      simp only [bind, Except.bind] at h
      split at h
      · cases h
      rename_i r1 h1
      split at h
      · cases h
      rename_i r2 h2
      intro g hg
      rcases List.mem_cons.1 hg with rfl | hg
      · exact hf.1 ⟨_, h1⟩
      · exact returning_ok.1 ⟨_, h2⟩ g hg
    · intro h
      obtain ⟨r1, h1⟩ := hf.2 (h f (by simp))
      obtain ⟨r2, h2⟩ := (returning_ok (env := env) (fs := fs)).2 fun g hg => h g (by simp [hg])
      unfold findErrorReturningFunctions
      simp only [bind, Except.bind, h1, h2]
      exact ⟨_, rfl⟩

theorem collect_results {env : Env} {info : Interfaces.Info} : ∀ {ds : List IfaceDecl} {st st' : Interfaces.St},
    Interfaces.collect env info ds st = .ok st' → ∀ d ∈ ds, ∀ im, .method im ∈ d.elements → im.type.results ≠ some [] := by
  have hel : ∀ {typ : GoType} {es : List IfaceElement} {acc v}, Interfaces.elements env info typ es acc = .ok v →
      ∀ im, .method im ∈ es → im.type.results ≠ some [] := by
    intro typ es
    induction es with
    | nil => intro _ _ _ im h; cases h
    | cons e es ih =>
      intro acc v h im hm
      cases e with
      | embedded e =>
        unfold Interfaces.elements at h
        exact ih h im (by simpa using hm)
      | method m =>
        unfold Interfaces.elements at h
        simp only [bind, Except.bind] at h
        split at h
        · cases h
        rename_i r1 h1
        split at h
        · cases h
        rename_i r2 h2
        simp only [List.mem_cons, IfaceElement.method.injEq] at hm
        rcases hm with rfl | hm
        · intro hr
          unfold Interfaces.methodDeclares checkFunctionReturnsError at h1
          rw [hr] at h1
          simp [bind, Except.bind] at h1
        · exact ih h2 im hm
  intro ds
  induction ds with
  | nil => intro _ _ _ d h; cases h
  | cons d ds ih =>
    intro st st' h d' hd'
    unfold Interfaces.collect at h
    simp only [bind, Except.bind] at h
    split at h
    · cases h
    rename_i r1 h1
    rcases List.mem_cons.1 hd' with rfl | hd'
    · exact hel h1
    · exact ih h d' hd'

/-- **C22**: the declarations are read without a panic if and only if no function, and no interface method, has a result list that is
written but empty (`func f() ()`). -/
theorem declarations_read (hS : S.Fair) (hn : P.funcs.Nodup) (hd : Declarations P) :
    (∃ s out, Prepared P S strict s out) ↔ (∀ f, Kept P f → (P.env.func f).type.results ≠ some []) ∧
      ∀ d ∈ P.ifaces, ∀ im, .method im ∈ d.elements → im.type.results ≠ some [] := by
  constructor
  · rintro ⟨s, out, h⟩
    refine ⟨fun f hf => ?_, ?_⟩
    · exact returning_ok.1 ⟨_, h.funcs⟩ f ((hS.functions _).mem_iff.2 ((kept_iff hn).2 hf))
    · have := h.find
      unfold Interfaces.find at this
      simp only [bind, Except.bind] at this
      split at this
      · cases this
      rename_i st hst
      exact collect_results hst
  · rintro ⟨h1, h2⟩
    have htag : ∀ (specs : List TypeSpec) (facts : Facts), ∃ r, findAndTagErrorTypes P.start P.decls P.types P.depth specs facts = .ok r := by
      intro specs
      induction specs with
      | nil => intro facts; exact ⟨_, rfl⟩
      | cons spec specs ih =>
        intro facts
        unfold findAndTagErrorTypes
        split
        · exact ih facts
        · rename_i err _
          obtain ⟨r, hr⟩ := ErrorTypes.tagging_total P.start P.decls P.types spec err P.depth (Nat.le_refl _) hd.parsed
            (fun m rs hm hrs => by
              have h1 : m ∈ (collectFunctions P.decls P.funcs).2 b!"Code" := hm.1
              rw [collectFunctions_methods] at h1
              have h2 := List.mem_filter.1 h1
              simp only [Bool.and_eq_true, Option.isSome_iff_ne_none, beq_iff_eq] at h2
              exact hd.arity m h2.1 h2.2.1 h2.2.2 rs hrs)
          simp only [bind, Except.bind, hr]
          obtain ⟨fact, ds⟩ := r
          rcases fact with - | ⟨o, et⟩
          · obtain ⟨r2, hr2⟩ := ih facts
            simp only [hr2]
            exact ⟨_, rfl⟩
          · obtain ⟨r2, hr2⟩ := ih { facts with errorType := fun p => if p = o then some et else facts.errorType p }
            simp only [hr2]
            exact ⟨_, rfl⟩
    obtain ⟨⟨tagged, tags⟩, ht⟩ := htag P.specs P.env.facts
    obtain ⟨st, hst⟩ := Interfaces.declarations_end (env := P.at_ tagged) (info := P.ifaceInfo S) h2
    obtain ⟨is, ds, hi⟩ := Interfaces.search_ends (names := S.ifaceNames) hst
    obtain ⟨⟨funcs, signatures⟩, hf⟩ := returning_ok (env := P.at_ (Serum.Interfaces.exportFacts (P.ifaceInfo S) (S.ifaceExport is) tagged))
      (fs := S.functions P.collected) |>.2 fun f hf => h1 f ((kept_iff hn).1 ((hS.functions _).mem_iff.1 hf))
    let col := Serum.Interfaces.exportFacts (P.ifaceInfo S) (S.ifaceExport is) tagged
    let claims := findClaimedErrorCodes (P.at_ col) P.decls strict funcs
    let facts := exportErrorConstructorFacts P.start (S.ctorExport claims.1) col
    exact ⟨⟨tagged, is, col, funcs, claims.1, facts, [], Search.start, Search.start⟩,
      ⟨exportErrorCodeFacts P.start (S.codesExport claims.1) facts, tags, ds, signatures, claims.2, [], [], []⟩,
      ht, hi, rfl, hf, rfl, rfl, rfl⟩

/-! ## The rest of the run -/

/-- The facts with which the body of `f` is looked at in a run after which `facts` are known. -/
noncomputable def factsFor (P : Package) (facts : Facts) (f : FnId) : Facts :=
  open Classical in if Analysed P facts f then during P facts else facts

theorem seen_eq_plan {facts : Facts} {f : FnId} : seen P facts f = P.plan (factsFor P facts f) f := by
  unfold seen factsFor; split <;> rfl

/-- Function literals which are assigned to called variables are neither declared functions, nor called in another way: as a syntax
node, a literal is either the function of a call expression, or the value assigned to a variable. -/
def ValuesUncalled (P : Package) (facts : Facts) : Prop :=
  ∀ f, LookedAt P facts f → ∀ z ∈ (seen P facts f).visits, z ∉ P.funcs ∧ ∀ g, LookedAt P facts g → z ∉ (seen P facts g).calls

/-- **C22/C20**, exactly: a run whose declarations have been read ends without a panic if and only if no body that is looked at makes
the analyzer panic by itself, no literal is found twice as the value of a called variable, neither in one body nor in two, conversions
are understood, and the converted types have the methods of the interfaces. -/
theorem run_succeeds_iff (h : Prepared P S strict s out) (hS : S.Fair) (ho : Objects P) (hp : Interfaces.Program P.ifaces)
    (hv : ValuesUncalled P out.facts) :
    (∃ out', runVerify P S strict = .ok out') ↔
      (∀ f, LookedAt P out.facts f → (seen P out.facts f).panics = false ∧ (seen P out.facts f).visits.Nodup ∧
        ∀ g, LookedAt P out.facts g → g ≠ f → ∀ z ∈ (seen P out.facts f).visits, z ∉ (seen P out.facts g).visits) ∧
      (∀ loc, .panic loc ∉ checks P out.facts) ∧ MethodsExist (P.at_ out.facts) (checks P out.facts) := by
  have hdur := h.facts_during hS ho hp
  have hsucc : (∃ out', runVerify P S strict = .ok out') ↔ ∃ a b,
      Search.findAll (P.plan s.facts) ((P.functions s.facts).length + 1) ((S.claims s.claims).map Prod.fst) Search.start = .ok a ∧
      Conv.runSteps (P.at_ out.facts) S.conv (P.plan out.facts) ((P.functions s.facts).length + 1 + (P.functions out.facts).length)
        (Conv.steps (P.at_ out.facts) P.conv P.top) a.2 = .ok b := by
    constructor
    · rintro ⟨out', h'⟩
      obtain ⟨s', h'⟩ := ran_iff.1 h'
      have e1 := h.tag.symm.trans h'.tag
      simp only [Except.ok.injEq, Prod.mk.injEq] at e1
      have e2 := h.find; rw [e1.1] at e2
      have e2 := e2.symm.trans h'.find
      simp only [Except.ok.injEq, Prod.mk.injEq] at e2
      have e3 : s.collected = s'.collected := by rw [h.collected, h'.collected, e1.1, e2.1]
      have e4 := h.funcs; rw [e3] at e4
      have e4 := e4.symm.trans h'.funcs
      simp only [Except.ok.injEq, Prod.mk.injEq] at e4
      have e5 := h.claims; rw [e3, e4.1] at e5
      have e5 := e5.symm.trans h'.claims
      simp only [Prod.mk.injEq] at e5
      have e6 : s.facts = s'.facts := by rw [h.facts, h'.facts, e3, e5.1]
      have e7 : out.facts = out'.facts := by rw [h.exported, h'.exported, e6, e5.1]
      exact ⟨_, _, by rw [e6, e5.1]; exact h'.search, by rw [e6, e7]; exact h'.conv⟩
    · rintro ⟨⟨found, st⟩, ⟨rs, st'⟩, h1, h2⟩
      exact ⟨{ out with bodies := st'.diags, mismatches := _, conversions := rs }, ran_iff.2
        ⟨{ s with found := found, searched := st, final := st' },
          ⟨⟨h.tag, h.find, h.collected, h.funcs, h.claims, h.facts, h.exported⟩, h1, h2, rfl, rfl⟩⟩⟩
  rw [hsucc]
  have hord : ∀ f, f ∈ (S.claims s.claims).map Prod.fst ↔ ∃ c, Compared P f c := fun f => h.roots_iff hS ho
  have hordU : ∀ f ∈ (S.claims s.claims).map Prod.fst, f ∈ P.funcs := fun f hf =>
    Prepared.kept_sub ((hord f).1 hf).choose_spec.1
  have hAn : ∀ x, (∃ f ∈ (S.claims s.claims).map Prod.fst, Reach (Calls (P.plan s.facts)) f x) ↔ Analysed P out.facts x := by
    intro x
    unfold Analysed
    rw [← hdur]
    constructor
    · rintro ⟨f, hf, hr⟩; obtain ⟨c, hc⟩ := (hord f).1 hf; exact ⟨f, c, hc, hr⟩
    · rintro ⟨f, c, hc, hr⟩; exact ⟨f, (hord f).2 ⟨c, hc⟩, hr⟩
  have hm1 : ∀ x, (∃ f ∈ (S.claims s.claims).map Prod.fst, Reach (Calls (P.plan s.facts)) f x) →
      seen P out.facts x = P.plan s.facts x := fun x hx => by
    unfold seen; rw [if_pos ((hAn x).1 hx), hdur]
  have hm2 : ∀ x, (¬ ∃ f ∈ (S.claims s.claims).map Prod.fst, Reach (Calls (P.plan s.facts)) f x) →
      seen P out.facts x = P.plan out.facts x := fun x hx => by
    unfold seen; rw [if_neg fun h' => hx ((hAn x).2 h')]
  have hasked : (∀ loc, .panic loc ∉ checks P out.facts) →
      ∀ f, f ∈ askedAll (P.at_ out.facts) S.conv (checks P out.facts) ↔ Asked (P.at_ out.facts) (checks P out.facts) f :=
    fun hno f => mem_askedAll hS.conv (Ran.declaredOnce ho _) hno
  have hlook : (∀ loc, .panic loc ∉ checks P out.facts) → ∀ f,
      (∃ r ∈ (S.claims s.claims).map Prod.fst ++ askedAll (P.at_ out.facts) S.conv (checks P out.facts), Reach (Calls (seen P out.facts)) r f) ↔
        LookedAt P out.facts f := by
    intro hno f
    unfold LookedAt
    refine exists_congr fun g => and_congr_left fun _ => ?_
    rw [List.mem_append, hord, hasked hno]
  have hdecl : (∀ loc, .panic loc ∉ checks P out.facts) →
      ∀ z ∈ (S.claims s.claims).map Prod.fst ++ askedAll (P.at_ out.facts) S.conv (checks P out.facts), z ∈ P.funcs := by
    intro hno z hz
    rcases List.mem_append.1 hz with hz | hz
    · exact hordU z hz
    · obtain ⟨c, -, -, -, m, al, o, -, -, -, hd⟩ := (hasked hno z).1 hz
      exact Package.methods_sub hd.1
  have hphase := fun hno : ∀ loc, .panic loc ∉ checks P out.facts =>
    Search.two_phases_iff (p₁ := P.plan s.facts) (p₂ := P.plan out.facts) (mix := seen P out.facts)
      (order := (S.claims s.claims).map Prod.fst) (asked := askedAll (P.at_ out.facts) S.conv (checks P out.facts))
      (n₁ := (P.functions s.facts).length + 1) (n₂ := (P.functions s.facts).length + 1 + (P.functions out.facts).length) hm1 hm2
      (fun f hf z hz => ⟨fun hz' => (hv f ((hlook hno f).1 hf) z hz).1 (hdecl hno z hz'),
        fun g hg => (hv f ((hlook hno f).1 hf) z hz).2 g ((hlook hno g).1 hg)⟩)
      (Search.findAll_fuelled (Package.closed P _) (Nat.lt_succ_self _) _ _ fun f hf => Package.funcs_sub (hordU f hf))
      (fun st => Search.findAll_fuelled (Package.closed P _) (by omega) _ _ fun f hf =>
        Package.funcs_sub (hdecl hno f (List.mem_append_right _ hf)))
  constructor
  · rintro ⟨a, ⟨rs, st'⟩, h1, h2⟩
    obtain ⟨hno, hme, l, h3⟩ := (Conv.runSteps_iff hS.conv).1 ⟨rs, h2⟩
    refine ⟨?_, hno, hme⟩
    have := (hphase hno).1 ⟨a, _, h1, h3⟩
    simpa only [hlook hno] using this
  · rintro ⟨hall, hno, hme⟩
    have := (hphase hno).2 (by simpa only [hlook hno] using hall)
    obtain ⟨a, ⟨l, st'⟩, h1, h2⟩ := this
    obtain ⟨rs, h3⟩ := (Conv.runSteps_iff hS.conv).2 ⟨hno, hme, l, h2⟩
    exact ⟨a, _, h1, h3⟩

/-- Bodies and conversions are as parser and type checker guarantee. -/
structure Understood (P : Package) (facts : Facts) : Prop where
  bodies : ∀ f body, LookedAt P facts f → (P.env.func f).body = some body →
    Regular (P.at_ (factsFor P facts f)) f body ∧ Checked (P.at_ (factsFor P facts f)) f body
  conversions : ∃ calls, Conversions.Fine (P.at_ facts) P.conv calls P.top ∧ Conversions.Implements (P.at_ facts) P.conv calls P.top

/-- Without conversions that are not understood, nothing happens there. -/
theorem conversions_safe {facts : Facts} {calls : CallKind} (hf : Conversions.Fine (P.at_ facts) P.conv calls P.top)
    (hi : Conversions.Implements (P.at_ facts) P.conv calls P.top) :
    (∀ loc, .panic loc ∉ checks P facts) ∧ MethodsExist (P.at_ facts) (checks P facts) := by
  obtain ⟨h1, h2⟩ := Conversions.package_checked_partial hf
  refine ⟨h1, ?_⟩
  rintro ⟨ms, T, S, e⟩ hc hne hnil m allowed hmem
  obtain ⟨h3, h4⟩ := (h2 ms T S e).1 hc
  exact hi T S e ms h4 hne hnil h3 m allowed hmem

theorem calm_iff {facts : Facts} {f : FnId} (hl : LookedAt P facts f) (hu : Understood P facts) :
    (seen P facts f).panics = false ↔ ∃ body, (P.env.func f).body = some body ∧ ¬ Crashes (P.at_ (factsFor P facts f)) f body := by
  rw [seen_eq_plan]
  cases hb : (P.env.func f).body with
  | none =>
    have := Crash.no_body (env := P.at_ (factsFor P facts f)) (f := f) (fuel := P.depth) hb
    unfold Package.plan
    simp [this]
  | some body =>
    obtain ⟨h1, h2⟩ := hu.bodies f body hl hb
    have := Crash.body_exact h1 h2 (fuel := P.depth) (Nat.le_refl _)
    unfold Package.plan
    simp only [Option.some.injEq, exists_eq_left']
    rw [← this, Bool.not_eq_true]

/-- **C22** for well-typed packages: a run whose declarations have been read ends without a panic if and only if every function that is
looked at has a body without crashing construct (`Crashes`), and no literal is found twice as the value of a called variable. -/
theorem run_panics_exact (h : Prepared P S strict s out) (hS : S.Fair) (ho : Objects P) (hp : Interfaces.Program P.ifaces)
    (hv : ValuesUncalled P out.facts) (hu : Understood P out.facts) :
    (∃ out', runVerify P S strict = .ok out') ↔
      ∀ f, LookedAt P out.facts f → (∃ body, (P.env.func f).body = some body ∧ ¬ Crashes (P.at_ (factsFor P out.facts f)) f body) ∧
        (seen P out.facts f).visits.Nodup ∧
        ∀ g, LookedAt P out.facts g → g ≠ f → ∀ z ∈ (seen P out.facts f).visits, z ∉ (seen P out.facts g).visits := by
  rw [run_succeeds_iff h hS ho hp hv]
  obtain ⟨calls, hf, hi⟩ := hu.conversions
  rw [and_iff_left (conversions_safe hf hi)]
  exact forall_congr' fun f => forall_congr' fun hl => and_congr_left fun _ => calm_iff hl hu

/-- **C22**: if every function that is looked at has a body without crashing construct and calls no local variables in error position,
the run succeeds. -/
theorem run_succeeds_partial (h : Prepared P S strict s out) (hS : S.Fair) (ho : Objects P) (hp : Interfaces.Program P.ifaces)
    (hu : Understood P out.facts)
    (hb : ∀ f, LookedAt P out.facts f → ∃ body, (P.env.func f).body = some body ∧ ¬ Crashes (P.at_ (factsFor P out.facts f)) f body ∧
      ∀ id fn args, Calls.ErrCall (P.at_ (factsFor P out.facts f)) f body id fn args → ¬ IsVariable P.env fn) :
    ∃ out', runVerify P S strict = .ok out' := by
  have hvis : ∀ f, LookedAt P out.facts f → (seen P out.facts f).visits = [] := fun f hl => by
    obtain ⟨body, hb, -, hn⟩ := hb f hl
    rw [seen_eq_plan]
    exact (hu.bodies f body hl hb).1.no_visits (Nat.le_refl _) hn
  refine (run_panics_exact h hS ho hp (fun f hl z hz => ?_) hu).2 fun f hl => ⟨?_, ?_, fun g hg _ z hz => ?_⟩
  · rw [hvis f hl] at hz; cases hz
  · obtain ⟨body, h1, h2, -⟩ := hb f hl; exact ⟨body, h1, h2⟩
  · rw [hvis f hl]; exact List.nodup_nil
  · rw [hvis f hl] at hz; cases hz

/-- What the parser guarantees for function literals: as a syntax node, a literal occurs once.  If it is assigned to a variable, it is not
the declaration of a function, and not called. -/
structure Literals (P : Package) (facts : Facts) : Prop where
  undeclared : ∀ f z, LitValue P.env (bodyOf P f) z → z ∉ P.funcs ∧ ∀ o, (P.env.object o).decl ≠ .funcDecl z
  uncalled : ∀ f g z cid fn args id t b, LitValue P.env (bodyOf P f) z →
    Calls.ErrCall (P.at_ (factsFor P facts g)) g (bodyOf P g) cid fn args → fn.unparen ≠ .funcLit id z t b

/-- So function literals which are assigned to called variables are not called in another way. -/
theorem values_uncalled {facts : Facts} (hl : Literals P facts)
    (hr : ∀ f body, LookedAt P facts f → (P.env.func f).body = some body → Regular (P.at_ (factsFor P facts f)) f body) :
    ValuesUncalled P facts := by
  have nobody : ∀ f, (P.env.func f).body = none → (seen P facts f).visits = [] ∧ (seen P facts f).calls = [] := by
    intro f hb
    rw [seen_eq_plan]
    unfold Package.plan Analyse.plan bodyPlan
    have : ((P.at_ (factsFor P facts f)).func f).body = none := hb
    rw [this]
    exact ⟨rfl, rfl⟩
  intro f hf z hz
  cases hb : (P.env.func f).body with
  | none => rw [(nobody f hb).1] at hz; cases hz
  | some body =>
    rw [seen_eq_plan] at hz
    have hv : LitValue P.env (bodyOf P f) z := by
      have := ((hr f body hf hb).targets (Nat.le_refl _)).1 hz
      unfold bodyOf; rw [hb]; exact this
    obtain ⟨h1, h2⟩ := hl.undeclared f z hv
    refine ⟨h1, fun g hg hz' => ?_⟩
    cases hb' : (P.env.func g).body with
    | none => rw [(nobody g hb').2] at hz'; cases hz'
    | some body' =>
      rw [seen_eq_plan] at hz'
      rcases ((hr g body' hg hb').targets (Nat.le_refl _)).2 hz' with (⟨n, hn⟩ | ⟨n, hn⟩ | ⟨o, hn⟩) | ⟨cid, fn, args, id, t, b, hc, hu⟩
      · have hn : (collectFunctions P.decls P.funcs).1 n = some z := hn
        rw [collectFunctions_functions] at hn
        exact h1 (List.mem_filter.1 (List.mem_of_getLast? hn)).1
      · exact h1 (Package.methods_sub hn)
      · exact h2 o hn
      · refine hl.uncalled f g z cid fn args id t b hv ?_ hu
        unfold bodyOf; rw [hb']; exact hc

theorem noPanic_same {a b : Facts} (hab : SameFacts a b) (ha : ∀ loc, .panic loc ∉ checks P a) (loc : String) : .panic loc ∉ checks P b := by
  intro hm
  rw [checks_same hab] at hm
  obtain ⟨st, hst, he⟩ := List.mem_map.1 hm
  cases st with
  | check c => cases he
  | panic l => exact ha l hst

theorem methodsExist_same {a b : Facts} (hab : SameFacts a b) (ha : MethodsExist (P.at_ a) (checks P a)) :
    MethodsExist (P.at_ b) (checks P b) := by
  intro c hc h1 h2 m al hm
  rw [checks_same hab] at hc
  obtain ⟨st, hst, he⟩ := List.mem_map.1 hc
  cases st with
  | panic l => cases he
  | check c' =>
    cases he
    obtain ⟨ob, k⟩ := ha c' hst h1 h2 m al ((mapFacts_methods hab c').mem_iff.1 hm)
    refine ⟨ob, ?_⟩
    cases k with
    | direct k => exact .direct k
    | pointer k1 k2 k3 => exact .pointer k1 k2 k3

/-- Two runs, the second being given other facts, both succeed or both panic, if bodies and conversions are treated alike. -/
theorem success_alike {F : Facts} (hS : S.Fair) (hS' : S'.Fair) (ho : Objects P) (ho' : Objects (P.given F))
    (hp : Interfaces.Program P.ifaces)
    (hread : (∃ s out, Prepared P S strict s out) ↔ ∃ s out, Prepared (P.given F) S' strict s out)
    (hv : ∀ s out, Prepared P S strict s out → ValuesUncalled P out.facts)
    (hlk : ∀ {s out s' out'}, Prepared P S strict s out → Prepared (P.given F) S' strict s' out' → ∀ f, LookedAt P out.facts f ↔ LookedAt P out'.facts f)
    (hseen : ∀ {s out s' out'}, Prepared P S strict s out → Prepared (P.given F) S' strict s' out' → ∀ f,
      (seen P out.facts f).panics = (seen P out'.facts f).panics ∧ (seen P out.facts f).visits = (seen P out'.facts f).visits ∧
      (seen P out.facts f).calls = (seen P out'.facts f).calls)
    (hconv : ∀ {s out s' out'}, Prepared P S strict s out → Prepared (P.given F) S' strict s' out' →
      ((∀ loc, .panic loc ∉ checks P out.facts) ↔ ∀ loc, .panic loc ∉ checks P out'.facts) ∧
      (MethodsExist (P.at_ out.facts) (checks P out.facts) ↔ MethodsExist (P.at_ out'.facts) (checks P out'.facts))) :
    (∃ r, runVerify P S strict = .ok r) ↔ ∃ r, runVerify (P.given F) S' strict = .ok r := by
  by_cases hprep : ∃ s out, Prepared P S strict s out
  case neg =>
    have hprep' : ¬ ∃ s out, Prepared (P.given F) S' strict s out := fun h' => hprep (hread.2 h')
    constructor
    · rintro ⟨r, hr⟩; obtain ⟨s, hr⟩ := ran_iff.1 hr; exact absurd ⟨s, r, hr.toPrepared⟩ hprep
    · rintro ⟨r, hr⟩; obtain ⟨s, hr⟩ := ran_iff.1 hr; exact absurd ⟨s, r, hr.toPrepared⟩ hprep'
  obtain ⟨s', out', h'⟩ := hread.1 hprep
  obtain ⟨s, out, h⟩ := hprep
  have hv := hv s out h
  have hlk := hlk h h'
  have hseen := hseen h h'
  obtain ⟨hc1, hc2⟩ := hconv h h'
  have hv' : ValuesUncalled (P.given F) out'.facts := by
    intro f hl z hz
    have hz : z ∈ (seen P out'.facts f).visits := hz
    rw [← (hseen f).2.1] at hz
    refine ⟨(hv f ((hlk f).2 hl) z hz).1, fun g hg => ?_⟩
    show z ∉ (seen P out'.facts g).calls
    rw [← (hseen g).2.2]
    exact (hv f ((hlk f).2 hl) z hz).2 g ((hlk g).2 hg)
  rw [run_succeeds_iff h hS ho hp hv, run_succeeds_iff h' hS' ho' hp hv']
  show _ ↔ (∀ f, LookedAt P out'.facts f → (seen P out'.facts f).panics = false ∧ (seen P out'.facts f).visits.Nodup ∧
        ∀ g, LookedAt P out'.facts g → g ≠ f → ∀ z ∈ (seen P out'.facts f).visits, z ∉ (seen P out'.facts g).visits) ∧
      (∀ loc, .panic loc ∉ checks P out'.facts) ∧ MethodsExist (P.at_ out'.facts) (checks P out'.facts)
  rw [← hc1, ← hc2]
  simp only [← hlk, ← (hseen _).1, ← (hseen _).2.1]

theorem tag_ok {env env' : Env} {d : Decls} {td : TypeDecls} {fuel : Nat} (hty : typeToTag env' = typeToTag env)
    (htag : tagErrorType env' = tagErrorType env) : ∀ {specs : List TypeSpec} {a b : Facts},
    (∃ r, findAndTagErrorTypes env d td fuel specs a = .ok r) → ∃ r, findAndTagErrorTypes env' d td fuel specs b = .ok r
  | [], a, b, _ => ⟨_, rfl⟩
  | spec :: specs, a, b, ⟨r, h⟩ => by
    simp only [findAndTagErrorTypes, hty] at h ⊢
    cases ht : typeToTag env spec.typ with
    | none => simp only [ht] at h ⊢; exact tag_ok hty htag ⟨_, h⟩
    | some err =>
      simp only [ht, htag, bind, Except.bind, pure, Except.pure] at h ⊢
      cases hg : tagErrorType env d td fuel spec err with
      | error e => simp only [hg] at h; cases h
      | ok g =>
        simp only [hg] at h ⊢
        obtain ⟨fact, ds⟩ := g
        rcases fact with - | ⟨o, et⟩ <;>
        · simp only at h ⊢
          split at h
          · cases h
          rename_i hk
          obtain ⟨r', hr'⟩ := tag_ok (env := env) (env' := env') hty htag ⟨_, hk⟩
          rw [hr']; exact ⟨_, rfl⟩

/-- Whether the declarations can be read does not depend on orders of iteration. -/
theorem _root_.Serum.Prepared.any {F : Facts} (hF : SameFacts P.env.facts F) (h : Prepared P S strict s out) (hS : S.Fair) (hS' : S'.Fair) :
    ∃ s' out', Prepared (P.given F) S' strict s' out' := by
  obtain ⟨⟨tagged, tags⟩, ht⟩ := tag_ok (env := P.start) (env' := (P.given F).start) (b := F) (by rw [given_start hF]; rfl)
    (by rw [given_start hF]; exact Props.Run.tag_withIfaces _ _) ⟨_, h.tag⟩
  have h2 : ∀ d ∈ P.ifaces, ∀ im, .method im ∈ d.elements → im.type.results ≠ some [] := by
    have := h.find
    unfold Interfaces.find at this
    simp only [bind, Except.bind] at this
    split at this
    · cases this
    rename_i st hst
    exact collect_results hst
  obtain ⟨st, hst⟩ := Interfaces.declarations_end (env := (P.given F).at_ tagged) (info := (P.given F).ifaceInfo S') h2
  obtain ⟨is, ds, hi⟩ := Interfaces.search_ends (names := S'.ifaceNames) hst
  obtain ⟨⟨funcs, signatures⟩, hf⟩ := returning_ok
    (env := (P.given F).at_ (Serum.Interfaces.exportFacts ((P.given F).ifaceInfo S') (S'.ifaceExport is) tagged))
    (fs := S'.functions (P.given F).collected) |>.2 fun f hf =>
      returning_ok.1 ⟨_, h.funcs⟩ f ((hS.functions _).mem_iff.2 ((hS'.functions _).mem_iff.1 hf))
  let col := Serum.Interfaces.exportFacts ((P.given F).ifaceInfo S') (S'.ifaceExport is) tagged
  let claims := findClaimedErrorCodes ((P.given F).at_ col) P.decls strict funcs
  let facts := exportErrorConstructorFacts (P.given F).start (S'.ctorExport claims.1) col
  exact ⟨⟨tagged, is, col, funcs, claims.1, facts, [], Search.start, Search.start⟩,
    ⟨exportErrorCodeFacts (P.given F).start (S'.codesExport claims.1) facts, tags, ds, signatures, claims.2, [], [], []⟩,
    ht, hi, rfl, hf, rfl, rfl, rfl⟩

/-- **C20/C49**: whether a run panics depends neither on the order in which maps are iterated, nor on the order in which the methods of
imported interfaces are listed in the facts about them.

Partial: function literals are as the parser guarantees (`Literals`). -/
theorem same_success_partial {F : Facts} (hF : SameFacts P.env.facts F) (hS : S.Fair) (hS' : S'.Fair) (ho : Objects P)
    (hp : Interfaces.Program P.ifaces) (hv : ∀ s out, Prepared P S strict s out → ValuesUncalled P out.facts) :
    (∃ r, runVerify P S strict = .ok r) ↔ ∃ r, runVerify (P.given F) S' strict = .ok r := by
  have hread : (∃ s out, Prepared P S strict s out) ↔ ∃ s out, Prepared (P.given F) S' strict s out := by
    constructor
    · rintro ⟨s, out, h⟩; exact h.any hF hS hS'
    · rintro ⟨s, out, h⟩; exact Prepared.any (P := P.given F) (F := P.env.facts) hF.symm h hS' hS
  refine success_alike hS hS' ho (given_objects hF ho) hp hread hv (fun h h' f => ?_) (fun h h' f => ?_) (fun h h' => ?_)
  all_goals have hsame := Prepared.sameFacts' hF h h' hS hS' ho hp
  · exact lookedAt_same hsame
  · rw [seen_same hsame]; exact ⟨rfl, rfl, rfl⟩
  · exact ⟨⟨noPanic_same hsame, noPanic_same hsame.symm⟩, ⟨methodsExist_same hsame, methodsExist_same hsame.symm⟩⟩

/-- **C20**: whether a run panics does not depend on the order in which maps are iterated.

Partial: function literals are as the parser guarantees (`Literals`). -/
theorem success_order_independent_partial (hS : S.Fair) (hS' : S'.Fair) (ho : Objects P)
    (hp : Interfaces.Program P.ifaces) (hv : ∀ s out, Prepared P S strict s out → ValuesUncalled P out.facts) :
    (∃ r, runVerify P S strict = .ok r) ↔ ∃ r, runVerify P S' strict = .ok r :=
  same_success_partial (SameFacts.refl P.env.facts) hS hS' ho hp hv

/-! ## The example meets the hypotheses -/

set_option maxRecDepth 4000 in
theorem pkg_checks : checks pkg pkgOut.facts = [.check ⟨[(b!"Get", [b!"a-error"])], .named 20, .named 8, 63⟩] := rfl

theorem pkg_implements : Conversions.Implements (pkg.at_ pkgOut.facts) pkg.conv pkgCalls pkg.top := by
  intro T S e ms hc h1 h2 h3 m al hm
  have := ((Conversions.package_checked_partial pkg_fine).2 ms T S e).2 ⟨h3, hc⟩
  have this : .check ⟨ms, T, S, e⟩ ∈ checks pkg pkgOut.facts := this
  rw [pkg_checks] at this
  simp only [List.mem_singleton, Step.check.injEq, Check.mk.injEq] at this
  obtain ⟨rfl, rfl, rfl, rfl⟩ := this
  simp only [List.mem_singleton, Prod.mk.injEq] at hm
  obtain ⟨rfl, rfl⟩ := hm
  exact ⟨74, .direct rfl⟩

theorem pkg_noBody {f : FnId} (h : 5 ≤ f) : (pkg.env.func f).body = none := by
  obtain ⟨k, rfl⟩ := Nat.exists_eq_add_of_le h
  rw [Nat.add_comm]
  simp [pkg, pkgEnv, Env.func]

theorem pkg_bodies {facts : Facts} (hfacts : facts = pkgOut.facts ∨ facts = during pkg pkgOut.facts) {f : FnId} {body : List Node}
    (hb : (pkg.env.func f).body = some body) : Regular (pkg.at_ facts) f body ∧ Checked (pkg.at_ facts) f body := by
  have new : Regular (pkg.at_ facts) 1 Soundness.bodyNew := by
    have hs : simple (pkg.at_ facts) Soundness.bodyNew = true := rfl
    refine ⟨rfl, ⟨(Props.Tracking.scope_of_noLits _ _ (simple_noLit hs)).1,
      fun _ i _ _ => (Props.Tracking.scope_of_noLits _ _ (simple_noLit hs)).2 i⟩, ⟨?_, ?_⟩, ?_, ?_⟩
    · intro id fn type b ho; have := simple_node hs ho; simp [simpleNode] at this
    · intro id lhs rhs ho
      rw [Occurs, ← mem_inspectList] at ho
      simp [Soundness.bodyNew, Node.inspectList, Node.inspect] at ho
    · exact ⟨fun _ => 0, fun _ => Nat.zero_le _, fun x e i o hk hs' _ _ => absurd (simple_source hs hs').2 hk⟩
    · intro position hp
      have : position = 0 := by
        have h : importErrorConstructorFact (pkg.at_ facts) 1 = some 0 := by rcases hfacts with rfl | rfl <;> rfl
        rw [h] at hp; cases hp; rfl
      subst this
      show getParamIdent (pkg.env.func 1).type 0 ≠ none
      decide
  match f with
  | 0 => cases hb; exact ⟨.of_simple rfl rfl (by rcases hfacts with rfl | rfl <;> rfl), Crash.checked_of_simple rfl rfl⟩
  | 1 => cases hb; exact ⟨new, Crash.checked_of_simple rfl rfl⟩
  | 2 => cases hb; exact ⟨.of_simple rfl rfl (by rcases hfacts with rfl | rfl <;> rfl), Crash.checked_of_simple rfl rfl⟩
  | 3 => cases hb; exact ⟨.of_simple rfl rfl (by rcases hfacts with rfl | rfl <;> rfl), Crash.checked_of_simple rfl rfl⟩
  | 4 => cases hb; exact ⟨.of_simple rfl rfl (by rcases hfacts with rfl | rfl <;> rfl), Crash.checked_of_simple rfl rfl⟩
  | f + 5 => rw [pkg_noBody (Nat.le_add_left 5 f)] at hb; cases hb

theorem pkg_factsFor (f : FnId) : factsFor pkg pkgOut.facts f = pkgOut.facts ∨ factsFor pkg pkgOut.facts f = during pkg pkgOut.facts := by
  unfold factsFor; split
  · exact .inr rfl
  · exact .inl rfl

theorem pkg_understood : Understood pkg pkgOut.facts :=
  ⟨fun f _ _ hb => pkg_bodies (pkg_factsFor f) hb, pkgCalls, pkg_fine, pkg_implements⟩

theorem pkg_prepared : ∃ s, Prepared pkg schedule false s pkgOut := by
  obtain ⟨s, h⟩ := ran_iff.1 pkg_ran
  exact ⟨s, h.toPrepared⟩

theorem noLitValue {env : Env} {body : List Node} (h : simple env body = true) {z : FnId} : ¬ LitValue env body z := by
  rintro ⟨v, e, id, t, b, hs, he⟩
  obtain ⟨⟨_, lhs, rhs, ho, -, k, l, _, -, -, -, hk⟩, -⟩ := simple_source h hs
  have := Crash.occurs_unparen (Crash.occurs_child ho (c := e) (by simp [Node.children, List.mem_of_getElem? hk]))
  rw [he] at this
  have := simple_node h this
  simp [simpleNode] at this

theorem pkg_noLitValue {f : FnId} {z : FnId} : ¬ LitValue pkg.env (bodyOf pkg f) z := by
  refine noLitValue ?_
  match f with
  | 0 | 1 | 2 | 3 | 4 => rfl
  | f + 5 => unfold bodyOf; rw [pkg_noBody (Nat.le_add_left 5 f)]; rfl

theorem pkg_literals : Literals pkg pkgOut.facts :=
  ⟨fun _ _ h => absurd h pkg_noLitValue, fun _ _ _ _ _ _ _ _ _ h => absurd h pkg_noLitValue⟩

theorem pkg_valuesUncalled : ValuesUncalled pkg pkgOut.facts :=
  values_uncalled pkg_literals fun f _ hl hb => (pkg_understood.bodies f _ hl hb).1

theorem pkg_declarations : Declarations pkg where
  parsed := by
    intro m
    match m with
    | 0 => exact (pkg_bodies (.inl rfl) (f := 0) rfl).1.parsed
    | 1 => exact (pkg_bodies (.inl rfl) (f := 1) rfl).1.parsed
    | 2 => exact (pkg_bodies (.inl rfl) (f := 2) rfl).1.parsed
    | 3 => exact (pkg_bodies (.inl rfl) (f := 3) rfl).1.parsed
    | 4 => exact (pkg_bodies (.inl rfl) (f := 4) rfl).1.parsed
    | f + 5 =>
      unfold bodyOf
      rw [pkg_noBody (Nat.le_add_left 5 f)]
      exact ⟨fun _ _ _ _ h => by rw [Occurs, ← mem_inspectList] at h; simp [Node.inspectList] at h,
        fun _ _ _ h => by rw [Occurs, ← mem_inspectList] at h; simp [Node.inspectList] at h⟩
  arity := by
    intro m hm _ hn rs hr
    have : m = 3 := by
      simp only [pkg, List.mem_cons, List.not_mem_nil, or_false] at hm
      rcases hm with rfl | rfl | rfl | rfl | rfl
      · rfl
      all_goals exact absurd hn (by decide)
    subst this
    obtain ⟨id, h⟩ := hr
    rw [← mem_inspectList] at h
    simp [bodyOf, pkg, pkgEnv, bodyCode, Env.func, Node.inspectList, Node.inspect] at h
    exact .inl ⟨_, h.2⟩

/-- So the run succeeds for every order of iteration; and no function that is looked at has a crashing construct. -/
example : (∀ S' : Schedule, S'.Fair → ∃ r, runVerify pkg S' false = .ok r) ∧
    ∀ f, LookedAt pkg pkgOut.facts f → ∃ body, (pkg.env.func f).body = some body ∧
      ¬ Crashes (pkg.at_ (factsFor pkg pkgOut.facts f)) f body := by
  obtain ⟨s, hp⟩ := pkg_prepared
  refine ⟨fun S' hS' => ?_, fun f hl => ?_⟩
  · refine (success_order_independent_partial schedule_fair hS' pkg_objects pkg_program fun s out h => ?_).1 ⟨_, pkg_ran⟩
    have hsame := h.sameFacts hp schedule_fair schedule_fair pkg_objects pkg_program
    intro f hl z hz
    rw [seen_same hsame] at hz ⊢
    exact ⟨(pkg_valuesUncalled f ((lookedAt_same hsame).1 hl) z hz).1,
      fun g hg => (pkg_valuesUncalled f ((lookedAt_same hsame).1 hl) z hz).2 g ((lookedAt_same hsame).1 hg)⟩
  · exact ((run_panics_exact hp schedule_fair pkg_objects pkg_program pkg_valuesUncalled pkg_understood).1 ⟨_, pkg_ran⟩ f hl).1

/-- With `_, err := …` from a map in `g`, which `F` calls, the run panics; as it does with `func h() ()`. -/
def pkgBroken : Package :=
  { pkg with env := { pkgEnv with funcs := pkgEnv.funcs.set 2 ⟨107, some ⟨108, b!"g", none⟩, ⟨[], some [⟨[], 109⟩], 10⟩,
    some [.assign 901 [.ident ⟨902, b!"_", none⟩, .ident ⟨903, b!"err", some 0⟩] [.index 904 (.ident ⟨905, b!"m", some 5⟩) (.basicLit 906)],
      .ret 907 [.ident ⟨908, b!"err", some 0⟩]], 20, 300⟩ } }

def pkgBroken' : Package :=
  { pkg with env := { pkgEnv with funcs := pkgEnv.funcs.set 2 ⟨107, some ⟨108, b!"g", none⟩, ⟨[], some [], 210⟩, some [], 220, 300⟩ } }

theorem broken_panics :
    (runVerify pkgBroken schedule false).map (fun _ => ()) =
      .error (.panic "analyse.go:818: destructuring assignment is currently only supported from a call expression") ∧
    (runVerify pkgBroken' schedule false).map (fun _ => ()) = .error (.panic "analyse.go:297: index out of range [-1]") := ⟨rfl, rfl⟩

end Serum.Props.Run
