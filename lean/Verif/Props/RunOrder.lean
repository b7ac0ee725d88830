import Verif.ConvFacts
import Verif.Props.RunReports
import Verif.Props.RunExports
import Verif.Props.RunExample

/-!
# C20 — the order in which maps are iterated does not matter
-/

namespace Serum.Props.Run
open Serum RunSpec ConvSpec Conv

variable {P : Package} {S S' : Schedule} {strict : Bool} {out out' : Outcome}

/-- The same facts; only the methods of a recorded interface may be listed in another order. -/
structure SameFacts (a b : Facts) : Prop where
  codes : a.codes = b.codes
  ctor : a.ctor = b.ctor
  errorType : a.errorType = b.errorType
  interface : ∀ o, (a.interface o = none ∧ b.interface o = none) ∨
    ∃ ms ms', a.interface o = some ms ∧ b.interface o = some ms' ∧ ms.Perm ms'

/-- The same results: the same facts, and the same diagnostics in each phase, as often, possibly in another order. -/
structure SameOutcome (a b : Outcome) : Prop where
  facts : SameFacts a.facts b.facts
  tags : a.tags = b.tags
  ifaces : a.ifaces.Perm b.ifaces
  signatures : a.signatures.Perm b.signatures
  claims : a.claims.Perm b.claims
  bodies : a.bodies.Perm b.bodies
  mismatches : a.mismatches.Perm b.mismatches
  conversions : a.conversions.Perm b.conversions

theorem SameFacts.refl (a : Facts) : SameFacts a a :=
  ⟨rfl, rfl, rfl, fun o => by
    cases h : a.interface o with
    | none => exact .inl ⟨rfl, rfl⟩
    | some ms => exact .inr ⟨ms, ms, rfl, rfl, .refl _⟩⟩

theorem SameFacts.symm {a b : Facts} (h : SameFacts a b) : SameFacts b a :=
  ⟨h.codes.symm, h.ctor.symm, h.errorType.symm, fun o => (h.interface o).imp And.symm fun ⟨ms, ms', h1, h2, h3⟩ => ⟨ms', ms, h2, h1, h3.symm⟩⟩

/-- The package, having been given these facts about other packages. -/
def _root_.Serum.Package.given (P : Package) (F : Facts) : Package := { P with env := { P.env with facts := F } }

theorem nodup_of_keys {α β : Type} : ∀ {l : List (α × β)}, (l.map Prod.fst).Nodup → l.Nodup := by
  intro l h
  exact List.Pairwise.of_map Prod.fst (fun a b hab h => hab (by rw [h])) h

theorem perm_of_keys {α β : Type} {l l' : List (α × β)} (h : (l.map Prod.fst).Nodup) (h' : (l'.map Prod.fst).Nodup)
    (hm : ∀ a b, (a, b) ∈ l ↔ (a, b) ∈ l') : l.Perm l' :=
  (List.perm_ext_iff_of_nodup (nodup_of_keys h) (nodup_of_keys h')).2 fun ⟨a, b⟩ => hm a b

set_option smartUnfolding false in
theorem tag_withIfaces (env : Env) (i : Object → Option (List (GoString × CodeSet))) :
    tagErrorType (env.withIfaces i) = tagErrorType env := rfl

/-- Error types are found in the same way, given the same facts about them. -/
theorem tags_same {env env' : Env} {d : Decls} {td : TypeDecls} {fuel : Nat} (hty : typeToTag env' = typeToTag env)
    (htag : tagErrorType env' = tagErrorType env) :
    ∀ {specs : List TypeSpec} {a b t t' : Facts} {ds ds' : List TagDiag}, a.errorType = b.errorType →
    findAndTagErrorTypes env d td fuel specs a = .ok (t, ds) → findAndTagErrorTypes env' d td fuel specs b = .ok (t', ds') →
    t.errorType = t'.errorType ∧ ds = ds'
  | [], a, b, t, t', ds, ds', h, h1, h2 => by cases h1; cases h2; exact ⟨h, rfl⟩
  | spec :: specs, a, b, t, t', ds, ds', h, h1, h2 => by
    simp only [findAndTagErrorTypes, hty] at h1 h2
    cases ht : typeToTag env spec.typ with
    | none => simp only [ht] at h1 h2; exact tags_same hty htag h h1 h2
    | some err =>
      simp only [ht, htag, bind, Except.bind, pure, Except.pure] at h1 h2
      cases hg : tagErrorType env d td fuel spec err with
      | error e => simp [hg] at h1
      | ok v =>
        simp only [hg] at h1 h2
        split at h1
        · cases h1
        rename_i r hr
        split at h2
        · cases h2
        rename_i r' hr'
        cases h1; cases h2
        have key := tags_same hty htag (t := r.1) (t' := r'.1) (ds := r.2) (ds' := r'.2) (by
          cases v.1 with
          | none => exact h
          | some p => simp only [h]) hr hr'
        exact ⟨key.1, by rw [key.2]⟩

/-- With the same imported facts, imported interfaces have the same methods. -/
theorem given_imports {F : Facts} (hF : SameFacts P.env.facts F) : SameImports P.env (P.given F).env := by
  have key : ∀ {a b : Env}, a.typeOf = b.typeOf → SameFacts a.facts b.facts → ∀ id m C,
      (∃ ms, IfaceSpec.Recorded a id ms ∧ (m, C) ∈ ms) → ∃ ms, IfaceSpec.Recorded b id ms ∧ (m, C) ∈ ms := by
    rintro a b ht hF id m C ⟨ms, ⟨o, h1, h2⟩, h3⟩
    rcases hF.interface o with ⟨k, -⟩ | ⟨ms1, ms', k1, k2, k3⟩
    · rw [h2] at k; cases k
    · rw [h2] at k1; cases k1
      exact ⟨ms', ⟨o, ht ▸ h1, k2⟩, k3.mem_iff.1 h3⟩
  exact fun id m C => ⟨key (a := P.env) (b := (P.given F).env) rfl hF id m C, key (a := (P.given F).env) (b := P.env) rfl hF.symm id m C⟩

theorem given_objects {F : Facts} (hF : SameFacts P.env.facts F) (ho : Objects P) : Objects (P.given F) where
  funcs := ho.funcs
  distinct := ho.distinct
  methods := ho.methods
  apart := ho.apart
  interfaces := ho.interfaces
  imported := fun f hf => ⟨(congrFun hF.codes _).symm.trans (ho.imported f hf).1, (congrFun hF.ctor _).symm.trans (ho.imported f hf).2⟩
  importedMethods := fun d hd im him => (congrFun hF.codes _).symm.trans (ho.importedMethods d hd im him)
  importedInterfaces := fun d hd => by
    rcases hF.interface d.obj with ⟨-, k⟩ | ⟨ms, ms', k, -⟩
    · exact k
    · rw [ho.importedInterfaces d hd] at k; cases k
  importedTables := fun o ms h => by
    rcases hF.interface o with ⟨-, k⟩ | ⟨ms1, ms', k1, k2, k3⟩
    · rw [show F.interface o = some ms from h] at k; cases k
    · rw [show F.interface o = some ms from h] at k2; cases k2
      exact (k3.map Prod.fst).nodup_iff.1 (ho.importedTables o ms1 k1)

theorem given_start {F : Facts} (hF : SameFacts P.env.facts F) : (P.given F).start = P.start.withIfaces F.interface := by
  unfold Package.start Package.given Env.withIfaces
  have h1 := hF.codes; have h2 := hF.ctor; have h3 := hF.errorType
  dsimp only
  rw [h1, h2, h3]

theorem _root_.Serum.Prepared.sameTags {F : Facts} (hF : SameFacts P.env.facts F) {s s' : Stages} (h : Prepared P S strict s out)
    (h' : Prepared (P.given F) S' strict s' out') : s.tagged.errorType = s'.tagged.errorType ∧ out.tags = out'.tags := by
  have ht := h'.tag
  rw [given_start hF] at ht
  exact tags_same (env := P.start) (env' := P.start.withIfaces F.interface) rfl (tag_withIfaces _ _) hF.errorType h.tag ht

theorem _root_.Serum.Prepared.sameFacts' {F : Facts} (hF : SameFacts P.env.facts F) {s s' : Stages} (h : Prepared P S strict s out)
    (h' : Prepared (P.given F) S' strict s' out') (hS : S.Fair) (hS' : S'.Fair)
    (ho : Objects P) (hp : Interfaces.Program P.ifaces) : SameFacts out.facts out'.facts where
  codes := by
    obtain ⟨a1, a2, a3⟩ := h.out_codes hS ho hp
    obtain ⟨b1, b2, b3⟩ := h'.out_codes hS' (given_objects hF ho) hp
    funext o
    by_cases hf : ∃ f ∈ P.funcs, P.env.funcObj f = o
    · obtain ⟨f, hf, rfl⟩ := hf
      exact Option.ext fun C => by rw [a1 f hf]; exact (b1 f hf C).symm
    · by_cases hm : ∃ d ∈ P.ifaces, ∃ im, .method im ∈ d.elements ∧ P.methodObj im.ident.id = o
      · obtain ⟨d, hd, im, him, rfl⟩ := hm
        exact Option.ext fun C => by rw [a2 d hd im him]; exact (b2 d hd im him C).symm
      · have k1 : ∀ f ∈ P.funcs, P.env.funcObj f ≠ o := fun f hf' he => hf ⟨f, hf', he⟩
        have k2 : ∀ d ∈ P.ifaces, ∀ im, .method im ∈ d.elements → P.methodObj im.ident.id ≠ o :=
          fun d hd im him he => hm ⟨d, hd, im, him, he⟩
        rw [a3 o k1 k2, b3 o k1 k2]; exact congrFun hF.codes o
  ctor := by
    obtain ⟨a1, a2⟩ := h.out_ctor hS ho
    rw [← (h.out_rest hS ho).1] at a1 a2
    obtain ⟨b1, b2⟩ := h'.out_ctor hS' (given_objects hF ho)
    rw [← (h'.out_rest hS' (given_objects hF ho)).1] at b1 b2
    funext o
    by_cases hf : ∃ f ∈ P.funcs, P.env.funcObj f = o
    · obtain ⟨f, hf, rfl⟩ := hf
      exact Option.ext fun C => by rw [a1 f hf]; exact (b1 f hf C).symm
    · have k1 : ∀ f ∈ P.funcs, P.env.funcObj f ≠ o := fun f hf' he => hf ⟨f, hf', he⟩
      rw [a2 o k1, b2 o k1]; exact congrFun hF.ctor o
  errorType := by
    rw [(h.out_rest hS ho).2.1, (h'.out_rest hS' (given_objects hF ho)).2.1]
    exact (h.sameTags hF h').1
  interface := by
    obtain ⟨a1, a2⟩ := h.interfaces_exact_partial hS ho hp
    obtain ⟨b1, b2⟩ := h'.interfaces_exact_partial hS' (given_objects hF ho) hp
    have hi := given_imports hF
    have hhas : ∀ d m C, IfaceSpec.Has P.env P.ifaces d m C ↔ IfaceSpec.Has (P.given F).env P.ifaces d m C := fun d m C =>
      ⟨has_congr (env := P.env) (env' := (P.given F).env) rfl rfl hi, has_congr (env := (P.given F).env) (env' := P.env) rfl rfl hi.symm⟩
    have htakes : ∀ d m C, IfaceSpec.Takes P.env P.ifaces d m C ↔ IfaceSpec.Takes (P.given F).env P.ifaces d m C := fun d m C =>
      ⟨takesFrom_congr (env := P.env) (env' := (P.given F).env) rfl rfl hi,
        takesFrom_congr (env := (P.given F).env) (env' := P.env) rfl rfl hi.symm⟩
    intro o
    by_cases hd : ∃ d ∈ P.ifaces, d.obj = o
    · obtain ⟨d, hd, rfl⟩ := hd
      cases ho : out.facts.interface d.obj with
      | none =>
        cases ho' : out'.facts.interface d.obj with
        | none => exact .inl ⟨rfl, rfl⟩
        | some ms' =>
          obtain ⟨m, C, hh⟩ := (b1 d hd).1.1 ⟨ms', ho'⟩
          obtain ⟨ms, hms⟩ := (a1 d hd).1.2 ⟨m, C, (hhas d m C).2 hh⟩
          rw [ho] at hms; cases hms
      | some ms =>
        obtain ⟨m, C, hh⟩ := (a1 d hd).1.1 ⟨ms, ho⟩
        obtain ⟨ms', hms'⟩ := (b1 d hd).1.2 ⟨m, C, (hhas d m C).1 hh⟩
        obtain ⟨k1, k2⟩ := (a1 d hd).2 ms ho
        obtain ⟨l1, l2⟩ := (b1 d hd).2 ms' hms'
        exact .inr ⟨ms, ms', rfl, hms', perm_of_keys k1 l1 fun m C => by rw [k2, l2]; exact htakes d m C⟩
    · have k : ∀ d ∈ P.ifaces, d.obj ≠ o := fun d hd' he => hd ⟨d, hd', he⟩
      rw [a2 o k, b2 o k]
      exact hF.interface o

theorem _root_.Serum.Prepared.sameFacts {s s' : Stages} (h : Prepared P S strict s out) (h' : Prepared P S' strict s' out') (hS : S.Fair) (hS' : S'.Fair)
    (ho : Objects P) (hp : Interfaces.Program P.ifaces) : SameFacts out.facts out'.facts :=
  Prepared.sameFacts' (SameFacts.refl P.env.facts) h h' hS hS' ho hp

/-- **C20/C38**: the exported facts do not depend on the iteration orders. -/
theorem facts_order_independent_partial (h : runVerify P S strict = .ok out) (h' : runVerify P S' strict = .ok out') (hS : S.Fair) (hS' : S'.Fair)
    (ho : Objects P) (hp : Interfaces.Program P.ifaces) : SameFacts out.facts out'.facts := by
  obtain ⟨s, h⟩ := ran_iff.1 h
  obtain ⟨s', h'⟩ := ran_iff.1 h'
  exact h.toPrepared.sameFacts h'.toPrepared hS hS' ho hp

theorem during_same {a b : Facts} (h : SameFacts a b) : (P.plan (during P a)) = P.plan (during P b) := by
  refine Package.plan_eq ?_ h.ctor h.errorType
  unfold during
  simp only [h.codes]

theorem plan_same {a b : Facts} (h : SameFacts a b) : P.plan a = P.plan b := Package.plan_eq h.codes h.ctor h.errorType

theorem seen_same {a b : Facts} (h : SameFacts a b) : seen P a = seen P b := by
  unfold seen Analysed
  rw [during_same h, plan_same h]

/-- How the records of one run become those of the other. -/
noncomputable def reorder (a b : Facts) (o : Object) (ms : List (GoString × CodeSet)) : List (GoString × CodeSet) :=
  if a.interface o = some ms then (b.interface o).getD ms else ms

theorem reorder_map {a b : Facts} (h : SameFacts a b) (o : Object) : b.interface o = (a.interface o).map (reorder a b o) := by
  rcases h.interface o with ⟨h1, h2⟩ | ⟨ms, ms', h1, h2, -⟩
  · rw [h1, h2]; rfl
  · rw [h1, h2]; simp [reorder, h1, h2]

theorem reorder_perm {a b : Facts} (h : SameFacts a b) (o : Object) (ms : List (GoString × CodeSet)) : (reorder a b o ms).Perm ms := by
  unfold reorder
  split
  · rename_i he
    rcases h.interface o with ⟨h1, h2⟩ | ⟨ms1, ms', h1, h2, h3⟩
    · rw [h1] at he; cases he
    · rw [h1] at he; cases he; rw [h2]; exact h3.symm
  · exact .refl _

theorem at_same {a b : Facts} (h : SameFacts a b) : P.at_ b = (P.at_ a).withIfaces b.interface := by
  unfold Package.at_ Env.withIfaces
  have h1 := h.codes; have h2 := h.ctor; have h3 := h.errorType
  cases a; cases b; simp only at h1 h2 h3; subst h1 h2 h3; rfl

theorem checks_same {a b : Facts} (h : SameFacts a b) : checks P b = (checks P a).map (Step.mapFacts (reorder a b)) := by
  unfold checks
  rw [at_same h, steps_map (P.at_ a) P.conv b.interface (reorder a b) (reorder_map h)]

theorem mapFacts_methods {a b : Facts} (h : SameFacts a b) (c : Check) : (Check.mapFacts (reorder a b) c).methods.Perm c.methods := by
  unfold Check.mapFacts
  dsimp only
  split
  · exact reorder_perm h _ _
  · exact .refl _

theorem asked_same {a b : Facts} (h : SameFacts a b) {f : FnId} (hf : Asked (P.at_ a) (checks P a) f) :
    Asked (P.at_ b) (checks P b) f := by
  obtain ⟨c, hc, h1, h2, m, al, o, h3, h4, h5, h6⟩ := hf
  refine ⟨Check.mapFacts (reorder a b) c, ?_, h1, h2, m, al, o, (mapFacts_methods h c).mem_iff.2 h3, ?_, ?_, h6⟩
  · rw [checks_same h]; exact List.mem_map.2 ⟨_, hc, rfl⟩
  · cases h4 with
    | direct k => exact .direct k
    | pointer k1 k2 k3 => exact .pointer k1 k2 k3
  · have h5 : a.codes o = none := h5
    rw [h.codes] at h5; exact h5

theorem lookedAt_same {a b : Facts} (h : SameFacts a b) {f : FnId} : LookedAt P a f ↔ LookedAt P b f := by
  unfold LookedAt
  rw [seen_same h]
  constructor
  · rintro ⟨g, hg, hr⟩; exact ⟨g, hg.imp id (asked_same h), hr⟩
  · rintro ⟨g, hg, hr⟩; exact ⟨g, hg.imp id (asked_same h.symm), hr⟩

theorem expected_same {a b : Facts} (h : SameFacts a b) {plan : FnId → BodyPlan} (c : Check) (x : GoString × CodeSet) :
    expected (P.at_ b) plan (Check.mapFacts (reorder a b) c) x = expected (P.at_ a) plan c x := by
  have hm : ∀ T m o, MethodOf (P.at_ b) T m o ↔ MethodOf (P.at_ a) T m o := fun T m o =>
    ⟨fun k => by cases k with
      | direct k => exact .direct k
      | pointer k1 k2 k3 => exact .pointer k1 k2 k3,
     fun k => by cases k with
      | direct k => exact .direct k
      | pointer k1 k2 k3 => exact .pointer k1 k2 k3⟩
  have hc : ∀ T m c, MethodCode (P.at_ b) plan T m c ↔ MethodCode (P.at_ a) plan T m c := by
    intro T m c
    have e : ∀ o, (P.at_ b).facts.codes o = (P.at_ a).facts.codes o := fun o => congrFun h.codes.symm o
    constructor
    · intro k
      cases k with
      | declared k1 k2 k3 => exact .declared ((hm _ _ _).1 k1) ((e _).symm.trans k2) k3
      | found k1 k2 k3 k4 => exact .found ((hm _ _ _).1 k1) ((e _).symm.trans k2) k3 k4
    · intro k
      cases k with
      | declared k1 k2 k3 => exact .declared ((hm _ _ _).2 k1) ((e _).trans k2) k3
      | found k1 k2 k3 k4 => exact .found ((hm _ _ _).2 k1) ((e _).trans k2) k3 k4
  have he : ∀ T m al l, Excess (P.at_ b) plan T m al l ↔ Excess (P.at_ a) plan T m al l := by
    intro T m al l
    unfold Excess
    simp only [hc]
  unfold expected
  by_cases hx : ∃ l, l ≠ [] ∧ Excess (P.at_ a) plan c.source x.1 x.2 l
  · have hx' : ∃ l, l ≠ [] ∧ Excess (P.at_ b) plan (Check.mapFacts (reorder a b) c).source x.1 x.2 l := by
      obtain ⟨l, h1, h2⟩ := hx; exact ⟨l, h1, (he _ _ _ _).2 h2⟩
    rw [dif_pos hx, dif_pos hx']
    have : hx'.choose = hx.choose := excess_unique ((he _ _ _ _).1 hx'.choose_spec.2) hx.choose_spec.2
    rw [this]; rfl
  · have hx' : ¬ ∃ l, l ≠ [] ∧ Excess (P.at_ b) plan (Check.mapFacts (reorder a b) c).source x.1 x.2 l := by
      rintro ⟨l, h1, h2⟩; exact hx ⟨l, h1, (he _ _ _ _).1 h2⟩
    rw [dif_neg hx, dif_neg hx']

theorem perm_of_each {α β : Type} [DecidableEq α] [DecidableEq β] {l l' : List (α × β)}
    (h : ∀ a, l.filter (fun x => x.1 = a) = l'.filter fun x => x.1 = a) : l.Perm l' := by
  rw [List.perm_iff_count]
  intro x
  have e : ∀ m : List (α × β), m.count x = (m.filter fun y => y.1 = x.1).count x := by
    intro m
    rw [List.count_filter (by simp)]
  rw [e l, e l', h x.1]

theorem signatures_list {env : Env} : ∀ {fs funcs : List FnId} {ds : List ClaimDiag}, findErrorReturningFunctions env fs = .ok (funcs, ds) →
    ds = fs.flatMap fun f => match checkFunctionReturnsError env (env.func f).type with
      | .ok r => r.2
      | .error _ => []
  | [], _, _, h => by cases h; rfl
  | f :: fs, _, _, h => by
    unfold findErrorReturningFunctions at h
    simp only [bind, Except.bind, pure, Except.pure] at h
    split at h
    · cases h
    rename_i r1 h1
    split at h
    · cases h
    rename_i r2 h2
    cases h
    rw [List.flatMap_cons, ← signatures_list h2, h1]

/-- The same functions are compared, in whatever order. -/
theorem perm_flatMap {α β : Type} {l l' : List α} (h : l.Perm l') (k : α → List β) : (l.flatMap k).Perm (l'.flatMap k) :=
  h.flatMap_right k

/-- The reports about conversions, one by one. -/
theorem conversions_list (ho : Objects P) (hp : Interfaces.Program P.ifaces) (h : runVerify P S strict = .ok out) (hS : S.Fair)
    (hl : ∀ f, Asked (P.at_ out.facts) (checks P out.facts) f → CallGraph.Settled (seen P out.facts) f) :
    out.conversions = (checks P out.facts).flatMap (expectedAt (P.at_ out.facts) S.conv (seen P out.facts)) := by
  obtain ⟨s, h⟩ := ran_iff.1 h
  rw [← h.program_eq hS ho hp] at hl ⊢
  obtain ⟨k1, k2⟩ := Conversions.run_start ⟨_, _, _, _, _, h.search, h.conv⟩
  refine runSteps_list hS.conv (Ran.declaredOnce ho _) Conversions.settled_closed Conversions.settled_visits _ _ k1 ?_ _ _ k2
  intro c hc h1 h2 x hx ob f h3 h4 h5
  exact hl f ⟨c, hc, h1, h2, x.1, x.2, ob, hx, h3, h4, h5⟩

/-- **C20/C49**, for a run: neither do the orders in which Go happens to iterate over the analyser's maps matter, nor the order in which
the methods of imported interfaces are listed in the facts about them: two runs over the same package, given the same facts, which both
finish, yield the same facts, and the same diagnostics the same number of times.

Partial: see `order_independent_partial`. -/
theorem same_inputs_partial {F : Facts} (hF : SameFacts P.env.facts F) (h : runVerify P S strict = .ok out)
    (h' : runVerify (P.given F) S' strict = .ok out') (hS : S.Fair) (hS' : S'.Fair)
    (ho : Objects P) (hp : Interfaces.Program P.ifaces)
    (hl₁ : ∀ f c, Compared P f c → CallGraph.Settled (P.plan (during P out.facts)) f)
    (hl : ∀ f, Asked (P.at_ out.facts) (checks P out.facts) f → CallGraph.Settled (seen P out.facts) f) :
    SameOutcome out out' := by
  have ho' := given_objects hF ho
  have hf : SameFacts out.facts out'.facts := by
    obtain ⟨s, h⟩ := ran_iff.1 h
    obtain ⟨s', h'⟩ := ran_iff.1 h'
    exact Prepared.sameFacts' hF h.toPrepared h'.toPrepared hS hS' ho hp
  have hd := during_same (P := P) hf
  have hs := seen_same (P := P) hf
  refine ⟨hf, ?_, ?_, ?_, ?_, ?_, ?_, ?_⟩
  · obtain ⟨s, h⟩ := ran_iff.1 h
    obtain ⟨s', h'⟩ := ran_iff.1 h'
    exact (h.toPrepared.sameTags hF h'.toPrepared).2
  · obtain ⟨s, h⟩ := ran_iff.1 h
    obtain ⟨s', h'⟩ := ran_iff.1 h'
    have hi : SameImports (P.at_ s.tagged) ((P.given F).at_ s'.tagged) := by
      refine fun id m C => Iff.trans ?_ ((given_imports hF id m C).trans ?_)
      · exact sameImports (env := P.at_ s.tagged) (env' := P.env) rfl h.toPrepared.tagged_rest.2.2 id m C
      · exact sameImports (env := (P.given F).env) (env' := (P.given F).at_ s'.tagged) rfl h'.toPrepared.tagged_rest.2.2.symm id m C
    exact Interfaces.reports_same (h.toPrepared.iface_fair hS ho) (h'.toPrepared.iface_fair hS' ho') rfl rfl rfl
      (fun d x => clashes_congr (env := P.at_ s.tagged) (env' := (P.given F).at_ s'.tagged) rfl rfl hi) hp hS.ifaceNames hS'.ifaceNames h.find h'.find
  · obtain ⟨s, h⟩ := ran_iff.1 h
    obtain ⟨s', h'⟩ := ran_iff.1 h'
    rw [signatures_list h.funcs, signatures_list h'.funcs]
    exact perm_flatMap ((hS.functions _).trans (hS'.functions _).symm) _
  · obtain ⟨-, fs, h1, h2, e, h3, h4⟩ := declaration_reports_exact h hS ho.funcs
    obtain ⟨-, fs', h1', h2', e', h3', h4'⟩ := declaration_reports_exact h' hS' ho'.funcs
    have : e' = e := funext fun f => Option.ext fun x => by rw [h3', h3]; rfl
    rw [h4, h4', this]
    exact List.Perm.filterMap _ ((List.perm_ext_iff_of_nodup h1 h1').2 fun f => by rw [h2, h2']; rfl)
  · classical
    refine perm_of_each fun f => ?_
    have e : ∀ l : List (FnId × Diag), l.filter (fun x => x.1 = f) = ((l.filter fun x => x.1 = f).map Prod.snd).map fun d => (f, d) := by
      intro l
      induction l with
      | nil => rfl
      | cons a l ih =>
        by_cases ha : a.1 = f
        · simp only [ha, List.filter_cons, decide_true, if_true, List.map_cons]; rw [← ih, ← ha]
        · simp only [ha, List.filter_cons, decide_false]; exact ih
    rw [e out.bodies, e out'.bodies]
    have key : reportedIn out f = reportedIn out' f := by
      have k := bodies_once h hS ho hp f
      have k' := bodies_once h' hS' ho' hp f
      by_cases hv : LookedAt P out.facts f
      · rw [k.1 hv, k'.1 ((lookedAt_same hf).1 hv), hs]; rfl
      · rw [k.2 hv, k'.2 fun hv' => hv ((lookedAt_same hf).2 hv')]
    unfold reportedIn at key
    rw [key]
  · obtain ⟨k1, k2⟩ := mismatches_exact_partial h hS ho hp
    obtain ⟨k1', k2'⟩ := mismatches_exact_partial h' hS' ho' hp
    refine perm_of_keys k2 k2' fun f t => ⟨fun hm => ?_, fun hm => ?_⟩
    · obtain ⟨c, _, _, hc, -⟩ := (undeclared_derivable h hS ho hp).1 f t hm
      exact (k1' f (hd ▸ hl₁ f c hc) t).2 (hd ▸ (k1 f (hl₁ f c hc) t).1 hm)
    · obtain ⟨c, _, _, hc, -⟩ := (undeclared_derivable h' hS' ho' hp).1 f t hm
      exact (k1 f (hl₁ f c hc) t).2 (hd ▸ (k1' f (hd ▸ hl₁ f c hc) t).1 hm)
  · have e' : out'.conversions = (checks P out'.facts).flatMap (expectedAt (P.at_ out'.facts) S'.conv (seen P out'.facts)) :=
      conversions_list (P := P.given F) ho' hp h' hS' fun f hf' => show CallGraph.Settled (seen P out'.facts) f from hs ▸ hl f (asked_same hf.symm hf')
    rw [conversions_list ho hp h hS hl, e', checks_same hf, ← hs]
    exact (expected_perm hS.conv hS'.conv (reorder out.facts out'.facts) (expected_same hf) _ fun c _ => mapFacts_methods hf c).symm

/-- **C20**, for a run: the orders in which Go happens to iterate over the analyser's maps do not matter: two runs over the same
package which both finish yield the same facts, and the same diagnostics the same number of times.

Partial: neither functions with declarations nor methods whose bodies are looked at for conversions may reach a function literal that
calls back (with them, it is false: `CallGraph.order_matters`). -/
theorem order_independent_partial (h : runVerify P S strict = .ok out) (h' : runVerify P S' strict = .ok out') (hS : S.Fair) (hS' : S'.Fair)
    (ho : Objects P) (hp : Interfaces.Program P.ifaces)
    (hl₁ : ∀ f c, Compared P f c → CallGraph.Settled (P.plan (during P out.facts)) f)
    (hl : ∀ f, Asked (P.at_ out.facts) (checks P out.facts) f → CallGraph.Settled (seen P out.facts) f) :
    SameOutcome out out' :=
  same_inputs_partial (SameFacts.refl P.env.facts) h h' hS hS' ho hp hl₁ hl

/-! ## Example -/

/-- Another schedule. -/
def schedule' : Schedule where
  functions := id
  ifaceNames := fun t => (t.map Prod.fst).reverse
  tables := fun t => t.reverse
  ifaceMatch := ⟨id, List.reverse, id, id⟩
  ifaceExport := List.reverse
  ctorExport := id
  claims := id
  codesExport := List.reverse
  claimMatch := fun _ => ⟨id, List.reverse, id, id⟩
  conv := ⟨List.reverse, id, id⟩

theorem schedule'_fair : schedule'.Fair where
  functions := fun _ => .refl _
  ifaceNames := fun l => (l.map Prod.fst).reverse_perm
  tables := fun t => t.reverse_perm
  ifaceMatch := ⟨fun _ => .refl _, fun l => l.reverse_perm, fun _ => .refl _, fun _ => .refl _⟩
  ifaceExport := fun l => l.reverse_perm
  ctorExport := fun _ => .refl _
  claims := fun _ => .refl _
  codesExport := fun l => l.reverse_perm
  claimMatch := fun _ => ⟨fun _ => .refl _, fun l => l.reverse_perm, fun _ => .refl _, fun _ => .refl _⟩
  conv := ⟨fun l => l.reverse_perm, fun _ => .refl _, fun _ => .refl _⟩

/-- The hypotheses hold for the example. -/
theorem pkg_order : ∃ out', runVerify pkg schedule' false = .ok out' ∧ SameOutcome pkgOut out' :=
  ⟨_, rfl, order_independent_partial pkg_ran rfl schedule_fair schedule'_fair pkg_objects pkg_program
    (fun f _ _ => pkg_noCycle.settled f) fun f _ => pkg_noCycle'.settled f⟩

end Serum.Props.Run
