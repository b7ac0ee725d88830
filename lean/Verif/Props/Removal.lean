import Verif.Removal
import Verif.Props.Adoption
import Verif.ConvertsFacts
import Verif.Props.RunReports
import Verif.LinkedScope

/-!
# C61 — functions that nobody uses do not matter

Unused functions are removed from a package (or, read the other way round, functions are added to it).  What is found out about the
rest of the package stays the same.
-/

namespace Serum

/-- The package without the functions `gone`. -/
def Package.without (P : Package) (gone : FnId → Bool) : Package :=
  { P with
    funcs := P.funcs.filter fun f => !gone f
    top := P.top.filter fun d => match d with | .func f => !gone f | .node _ => true }

namespace Props.Removal
open RunSpec Run

variable {P : Package} {S S' : Schedule} {strict strict' : Bool} {out out' : Outcome} {gone : FnId → Bool}

/-- The functions `gone` (and the literals in them) are unused: they are not methods, nobody else has their name, no body of another
function leads to them, and those with an error code parameter are not referred to at all. -/
structure Unused (P : Package) (out : Outcome) (gone : FnId → Bool) : Prop where
  functions : ∀ g ∈ P.funcs, gone g = true → P.decls.recv g = none
  names : ∀ g ∈ P.funcs, gone g = true → ∀ f ∈ P.funcs, gone f = false → P.decls.recv f = none → P.decls.name f ≠ P.decls.name g
  uncalled : ∀ f, gone f = false → ∀ g, Calls (P.plan (during P out.facts)) f g → gone g = false
  constructors : ∀ g ∈ P.funcs, gone g = true → ∀ c, Compared P g c → c.param ≠ none →
    ¬ ((∃ n, P.env.callee n = some (P.env.funcObj g)) ∨ (∃ n, P.env.uses n = some (P.env.funcObj g)) ∨
      ∃ n r, P.env.selection n = some (r, P.env.funcObj g))
  /-- functions with a name are declarations of the package -/
  declared : ∀ f, gone f = false → (P.env.func f).declName.isSome = true → f ∈ P.funcs

/-- What a run without the functions has in common with the run before. -/
structure Unaffected (P : Package) (gone : FnId → Bool) (out out' : Outcome) : Prop where
  /-- the error types found, and the reports about them -/
  types : out'.facts.errorType = out.facts.errorType
  tags : out'.tags = out.tags
  /-- the interfaces found, and the reports about them -/
  interfaces : ∀ o, (out.facts.interface o = none ∧ out'.facts.interface o = none) ∨
    ∃ ms ms', out.facts.interface o = some ms ∧ out'.facts.interface o = some ms' ∧ ms.Perm ms'
  ifaces : out'.ifaces.Perm out.ifaces
  /-- the reports about signatures, except those about the functions removed -/
  signatures : ∃ extra, out.signatures.Perm (out'.signatures ++ extra) ∧
    ∀ x ∈ extra, ∃ g ∈ P.funcs, gone g = true ∧ ∃ fields, (P.env.func g).type.results = some fields ∧ ∃ r ∈ fields, x.at_ = r.typ
  /-- the error constructors, except for those removed -/
  constructors : ∀ o, (∀ g ∈ P.funcs, gone g = true → P.env.funcObj g ≠ o) → out'.facts.ctor o = out.facts.ctor o
  /-- the codes recorded, except for the functions removed -/
  codes : ∀ o, (∀ g ∈ P.funcs, gone g = true → P.env.funcObj g ≠ o) → out'.facts.codes o = out.facts.codes o
  /-- nothing is recorded for the functions removed -/
  removed : ∀ g ∈ P.funcs, gone g = true → out'.facts.codes (P.env.funcObj g) = none ∧ out'.facts.ctor (P.env.funcObj g) = none
  /-- the reports in all bodies analysed for a declaration of another function -/
  bodies : ∀ f c g, gone f = false → Compared P f c → Reach (Calls (P.plan (during P out.facts))) f g →
    reportedIn out' g = reportedIn out g

/-- The declarations of the package have been read: `out` contains what is known, and what has been reported, after that. -/
def Collected (P : Package) (S : Schedule) (strict : Bool) (out : Outcome) : Prop := ∃ s, Prepared P S strict s out

theorem collected (h : runVerify P S strict = .ok out) : Collected P S strict out := by
  obtain ⟨s, h⟩ := ran_iff.1 h
  exact ⟨s, h.toPrepared⟩

theorem Collected.codes (h : Collected P S strict out) (hS : S.Fair) (ho : Objects P) (hp : Interfaces.Program P.ifaces) :
    (∀ f ∈ P.funcs, ∀ C, out.facts.codes (P.env.funcObj f) = some C ↔ ∃ c, Compared P f c ∧ C = c.codes) ∧
    (∀ d ∈ P.ifaces, ∀ im, .method im ∈ d.elements → ∀ C, out.facts.codes (P.methodObj im.ident.id) = some C ↔ MethodDeclares P im C) ∧
    (∀ o, (∀ f ∈ P.funcs, P.env.funcObj f ≠ o) → (∀ d ∈ P.ifaces, ∀ im, .method im ∈ d.elements → P.methodObj im.ident.id ≠ o) →
      out.facts.codes o = P.env.facts.codes o) := by
  obtain ⟨s, h⟩ := h
  exact h.out_codes hS ho hp

theorem Collected.constructors (h : Collected P S strict out) (hS : S.Fair) (ho : Objects P) :
    (∀ f ∈ P.funcs, ∀ n, out.facts.ctor (P.env.funcObj f) = some n ↔ ∃ c p, Compared P f c ∧ c.param = some p ∧ n = p.position) ∧
    (∀ o, (∀ f ∈ P.funcs, P.env.funcObj f ≠ o) → out.facts.ctor o = P.env.facts.ctor o) := by
  obtain ⟨s, h⟩ := h
  rw [(h.out_rest hS ho).1]
  exact h.out_ctor hS ho

theorem mem_without {f : FnId} : f ∈ (P.without gone).funcs ↔ f ∈ P.funcs ∧ gone f = false := by
  show f ∈ P.funcs.filter _ ↔ _
  simp

theorem objects_without (h : Objects P) : Objects (P.without gone) where
  funcs := h.funcs.filter _
  distinct f hf g hg := h.distinct f (mem_without.1 hf).1 g (mem_without.1 hg).1
  methods := h.methods
  apart f hf := h.apart f (mem_without.1 hf).1
  imported f hf := h.imported f (mem_without.1 hf).1
  importedMethods := h.importedMethods
  interfaces := h.interfaces
  importedInterfaces := h.importedInterfaces
  importedTables := h.importedTables

theorem kept_without (hu : Unused P out gone) {f : FnId} : Kept (P.without gone) f ↔ Kept P f ∧ gone f = false := by
  constructor
  · rintro ⟨pre, post, h1, h2⟩
    have hf : f ∈ (P.without gone).funcs := by rw [h1]; simp
    refine ⟨?_, (mem_without.1 hf).2⟩
    have h1 : P.funcs.filter (fun f => !gone f) = pre ++ f :: post := h1
    obtain ⟨a, b, e, ha, hb⟩ := List.filter_eq_append_iff.1 h1
    obtain ⟨a', b', e', ha', hfk, hb'⟩ := List.filter_eq_cons_iff.1 hb
    refine ⟨a ++ a', b', by rw [e, e']; simp, ?_⟩
    rcases h2 with h2 | h2
    · exact .inl h2
    · by_cases hr : P.decls.recv f = none
      · refine .inr fun g hg hgr => ?_
        have hgm : g ∈ P.funcs := by rw [e, e']; simp [hg]
        by_cases hgg : gone g = true
        · exact (hu.names g hgm hgg f (mem_without.1 hf).1 (mem_without.1 hf).2 hr).symm
        · exact h2 g (by rw [← hb']; simpa [hg] using hgg) hgr
      · exact .inl hr
  · rintro ⟨⟨pre, post, h1, h2⟩, hg⟩
    refine ⟨pre.filter (fun f => !gone f), post.filter (fun f => !gone f), ?_, ?_⟩
    · show P.funcs.filter _ = _
      rw [h1]; simp [hg]
    · rcases h2 with h2 | h2
      · exact .inl h2
      · exact .inr fun g hg => h2 g (List.mem_filter.1 hg).1

theorem compared_without (hu : Unused P out gone) {f : FnId} {c : FuncCodes} : Compared (P.without gone) f c ↔ Compared P f c ∧ gone f = false := by
  unfold Compared
  rw [kept_without hu]
  constructor
  · rintro ⟨⟨h1, h2⟩, h3, h4⟩; exact ⟨⟨h1, h3, h4⟩, h2⟩
  · rintro ⟨⟨h1, h3, h4⟩, h2⟩; exact ⟨⟨h1, h2⟩, h3, h4⟩

theorem methods_without (hu : Unused P out gone) : (collectFunctions P.decls (P.without gone).funcs).2 = (collectFunctions P.decls P.funcs).2 := by
  funext n
  rw [collectFunctions_methods, collectFunctions_methods]
  show (P.funcs.filter fun f => !gone f).filter _ = _
  rw [List.filter_filter]
  refine List.filter_congr fun f hf => ?_
  by_cases hg : gone f = true
  · simp [hu.functions f hf hg]
  · simp [hg]

theorem functions_without (hu : Unused P out gone) (n : GoString) :
    (collectFunctions P.decls (P.without gone).funcs).1 n = (collectFunctions P.decls P.funcs).1 n ∨
    ∃ g, (collectFunctions P.decls P.funcs).1 n = some g ∧ gone g = true := by
  rw [collectFunctions_functions, collectFunctions_functions]
  by_cases h : ∃ g ∈ P.funcs, gone g = true ∧ P.decls.name g = n
  · obtain ⟨g, h1, h2, h3⟩ := h
    have hm : g ∈ P.funcs.filter fun f => (P.decls.recv f).isNone && (P.decls.name f == n) := by
      simp [h1, h3, hu.functions g h1 h2]
    cases hl : (P.funcs.filter fun f => (P.decls.recv f).isNone && (P.decls.name f == n)).getLast? with
    | none => rw [List.getLast?_eq_none_iff] at hl; rw [hl] at hm; cases hm
    | some x =>
      refine .inr ⟨x, rfl, ?_⟩
      have hx := List.mem_of_getLast? hl
      simp only [List.mem_filter, Bool.and_eq_true, Option.isNone_iff_eq_none, beq_iff_eq] at hx
      by_cases hgx : gone x = true
      · exact hgx
      · exact absurd (hx.2.2.trans h3.symm) (hu.names g h1 h2 x hx.1 (by simpa using hgx) hx.2.1)
  · refine .inl ?_
    have : (P.without gone).funcs.filter (fun f => (P.decls.recv f).isNone && (P.decls.name f == n)) =
        P.funcs.filter fun f => (P.decls.recv f).isNone && (P.decls.name f == n) := by
      show (P.funcs.filter fun f => !gone f).filter _ = _
      rw [List.filter_filter]
      refine List.filter_congr fun f hf => ?_
      by_cases hg : gone f = true
      · have : P.decls.name f ≠ n := fun e => h ⟨f, hf, hg, e⟩
        simp [this]
      · simp [hg]
    rw [this]

theorem collected_without (hu : Unused P out gone) : (P.without gone).collected = P.collected.filter fun f => !gone f := by
  unfold Package.collected
  rw [List.filter_filter]
  show (P.funcs.filter fun f => !gone f).filter _ = _
  rw [List.filter_filter]
  refine List.filter_congr fun f hf => ?_
  by_cases hg : gone f = true
  · simp [hg]
  · have hd : (P.without gone).decls = P.decls := rfl
    rw [hd]
    rcases functions_without hu (P.decls.name f) with h | ⟨g, h1, h2⟩
    · rw [h]; simp [Bool.and_comm]
    · cases hr : P.decls.recv f with
      | some r => simp
      | none =>
        have hg' : gone f = false := by simpa using hg
        rw [collectFunctions_functions] at h1
        have hx := List.mem_of_getLast? h1
        simp only [List.mem_filter, Bool.and_eq_true, Option.isNone_iff_eq_none, beq_iff_eq] at hx
        exact absurd hx.2.2.symm (hu.names g hx.1 h2 f hf hg' hr)

set_option smartUnfolding false in
private theorem tag_functions (env : Env) (fn : GoString → Option FnId) (d : Decls) (ts : TypeDecls) (n : Nat) (specs : List TypeSpec) (facts : Facts) :
    findAndTagErrorTypes { env with functions := fn } d ts n specs facts = findAndTagErrorTypes env d ts n specs facts := rfl

theorem start_without (hu : Unused P out gone) :
    (P.without gone).start = { P.start with functions := (collectFunctions P.decls (P.without gone).funcs).1 } := by
  unfold Package.start
  rw [← methods_without hu]
  rfl

theorem tag_without (hu : Unused P out gone) (facts : Facts) : findAndTagErrorTypes (P.without gone).start (P.without gone).decls
    (P.without gone).types (P.without gone).depth (P.without gone).specs facts =
    findAndTagErrorTypes P.start P.decls P.types P.depth P.specs facts := by
  rw [start_without hu]
  exact tag_functions _ _ _ _ _ _ _

theorem types_without (h : Collected P S strict out) (h' : Collected (P.without gone) S' strict' out') (hS : S.Fair)
    (hS' : S'.Fair) (ho : Objects P) (hu : Unused P out gone) : out'.facts.errorType = out.facts.errorType ∧ out'.tags = out.tags := by
  obtain ⟨s, hr⟩ := h
  obtain ⟨s', hr'⟩ := h'
  have e := (tag_without hu P.env.facts).symm.trans hr'.tag
  have e := hr.tag.symm.trans e
  simp only [Except.ok.injEq, Prod.mk.injEq] at e
  exact ⟨by rw [(hr.out_rest hS ho).2.1, (hr'.out_rest hS' (objects_without ho)).2.1, e.1], e.2.symm⟩

theorem codes_without (h : Collected P S strict out) (h' : Collected (P.without gone) S' strict' out') (hS : S.Fair)
    (hS' : S'.Fair) (ho : Objects P) (hp : Interfaces.Program P.ifaces) (hu : Unused P out gone) :
    (∀ o, (∀ g ∈ P.funcs, gone g = true → P.env.funcObj g ≠ o) → out'.facts.codes o = out.facts.codes o) ∧
    ∀ g ∈ P.funcs, gone g = true → out'.facts.codes (P.env.funcObj g) = none := by
  obtain ⟨a1, a2, a3⟩ := h.codes hS ho hp
  obtain ⟨b1, b2, b3⟩ := h'.codes hS' (objects_without ho) hp
  refine ⟨fun o hng => ?_, fun g hg hgg => ?_⟩
  · by_cases hf : ∃ f ∈ P.funcs, P.env.funcObj f = o
    · obtain ⟨f, hf, rfl⟩ := hf
      have hg : gone f = false := by
        cases hx : gone f with
        | false => rfl
        | true => exact absurd rfl (hng f hf hx)
      refine Option.ext fun C => (b1 f (mem_without.2 ⟨hf, hg⟩) C).trans (Iff.trans ?_ (a1 f hf C).symm)
      simp only [compared_without hu, hg, and_true]
    · have k1 : ∀ f ∈ P.funcs, P.env.funcObj f ≠ o := fun f hf' he => hf ⟨f, hf', he⟩
      by_cases hm : ∃ d ∈ P.ifaces, ∃ im, .method im ∈ d.elements ∧ P.methodObj im.ident.id = o
      · obtain ⟨d, hd, im, him, rfl⟩ := hm
        exact Option.ext fun C => (b2 d hd im him C).trans (a2 d hd im him C).symm
      · have k2 : ∀ d ∈ P.ifaces, ∀ im, .method im ∈ d.elements → P.methodObj im.ident.id ≠ o :=
          fun d hd im him he => hm ⟨d, hd, im, him, he⟩
        exact (b3 o (fun f hf => k1 f (mem_without.1 hf).1) k2).trans (a3 o k1 k2).symm
  · have := b3 (P.env.funcObj g) (fun f hf he => ?_) (fun d hd im him he => ho.apart g hg d hd im him he.symm)
    · rw [this]; exact (ho.imported g hg).1
    · have := ho.distinct f (mem_without.1 hf).1 g hg he
      subst this
      rw [(mem_without.1 hf).2] at hgg; cases hgg

theorem constructors_without (h : Collected P S strict out) (h' : Collected (P.without gone) S' strict' out') (hS : S.Fair)
    (hS' : S'.Fair) (ho : Objects P) (hu : Unused P out gone) :
    (∀ o, (∀ g ∈ P.funcs, gone g = true → P.env.funcObj g ≠ o) → out'.facts.ctor o = out.facts.ctor o) ∧
    ∀ g ∈ P.funcs, gone g = true → out'.facts.ctor (P.env.funcObj g) = none := by
  obtain ⟨a1, a2⟩ := h.constructors hS ho
  obtain ⟨b1, b2⟩ := h'.constructors hS' (objects_without ho)
  refine ⟨fun o hng => ?_, fun g hg hgg => ?_⟩
  · by_cases hf : ∃ f ∈ P.funcs, P.env.funcObj f = o
    · obtain ⟨f, hf, rfl⟩ := hf
      have hg : gone f = false := by
        cases hx : gone f with
        | false => rfl
        | true => exact absurd rfl (hng f hf hx)
      refine Option.ext fun n => (b1 f (mem_without.2 ⟨hf, hg⟩) n).trans (Iff.trans ?_ (a1 f hf n).symm)
      simp only [compared_without hu, hg, and_true]
    · have k1 : ∀ f ∈ P.funcs, P.env.funcObj f ≠ o := fun f hf' he => hf ⟨f, hf', he⟩
      exact (b2 o fun f hf => k1 f (mem_without.1 hf).1).trans (a2 o k1).symm
  · have := b2 (P.env.funcObj g) (fun f hf he => ?_)
    · rw [this]; exact (ho.imported g hg).2
    · have := ho.distinct f (mem_without.1 hf).1 g hg he
      subst this
      rw [(mem_without.1 hf).2] at hgg; cases hgg

/-- With the same facts about what is referred to, the bodies of the other functions are understood in the same way, or they lead to one
of the functions removed. -/
theorem plan_given (hu : Unused P out gone) {a b : Facts} (ht : b.errorType = a.errorType)
    (hk : ∀ o, Analyse.Mentioned P.env o → b.ctor o = a.ctor o) (hc : ∀ o, Analyse.Mentioned P.env o → b.codes o = a.codes o) {f : FnId}
    (hown : (P.env.func f).declName.isSome = true → b.ctor (P.env.funcObj f) = a.ctor (P.env.funcObj f)) :
    Plan.Unless (fun g => gone g = true) (P.plan a f) ((P.without gone).plan b f) := by
  -- the facts `b`, but with the error constructors and codes of `a`
  let F : Facts := { b with ctor := a.ctor, codes := a.codes }
  have e1 : P.plan F = P.plan a := Package.plan_eq rfl rfl ht
  have e2 : (P.without gone).at_ b = (P.at_ F).withFunctions (collectFunctions P.decls (P.without gone).funcs).1 b.ctor b.codes b.errorType := by
    unfold Package.at_
    rw [start_without hu]
    rfl
  have hrem : Analyse.Removes (P.at_ F) (collectFunctions P.decls (P.without gone).funcs).1 b.ctor b.codes b.errorType (fun g => gone g = true) f := by
    refine ⟨?_, functions_without hu, hk, hc, fun _ => rfl⟩
    unfold importErrorConstructorFact
    show (if (P.env.func f).declName.isSome then b.ctor (P.env.funcObj f) else none) =
      if (P.env.func f).declName.isSome then a.ctor (P.env.funcObj f) else none
    split
    · rename_i hd; exact hown hd
    · rfl
  have key := Analyse.plan_withFunctions hrem P.depth
  rw [← e2] at key
  rw [← e1]
  exact key

theorem constructors_mentioned (h : Collected P S strict out) (h' : Collected (P.without gone) S' strict' out') (hS : S.Fair)
    (hS' : S'.Fair) (ho : Objects P) (hu : Unused P out gone) :
    (∀ o, Analyse.Mentioned P.env o → out'.facts.ctor o = out.facts.ctor o) ∧
    ∀ f, gone f = false → (P.env.func f).declName.isSome = true → out'.facts.ctor (P.env.funcObj f) = out.facts.ctor (P.env.funcObj f) := by
  obtain ⟨k1, k2⟩ := constructors_without h h' hS hS' ho hu
  refine ⟨fun o hm => ?_, fun f hf hd => ?_⟩
  · by_cases hg : ∃ g ∈ P.funcs, gone g = true ∧ P.env.funcObj g = o
    · obtain ⟨g, h1, h2, rfl⟩ := hg
      rw [k2 g h1 h2]
      cases hx : out.facts.ctor (P.env.funcObj g) with
      | none => rfl
      | some n =>
        obtain ⟨c, p, d1, d2, -⟩ := ((h.constructors hS ho).1 g h1 n).1 hx
        exact absurd hm (hu.constructors g h1 h2 c d1 (by rw [d2]; simp))
    · exact k1 o fun g h1 h2 he => hg ⟨g, h1, h2, he⟩
  · refine k1 _ fun g hg hgg he => ?_
    have := ho.distinct g hg f (hu.declared f hf hd) he
    subst this
    rw [hf] at hgg; cases hgg

/-- The bodies of the other functions are understood in the same way. -/
theorem plan_without (h : Collected P S strict out) (h' : Collected (P.without gone) S' strict' out') (hS : S.Fair)
    (hS' : S'.Fair) (ho : Objects P) (hp : Interfaces.Program P.ifaces) (hu : Unused P out gone) {f : FnId} (hf : gone f = false) :
    (P.without gone).plan (during (P.without gone) out'.facts) f = P.plan (during P out.facts) f := by
  have ht := (types_without h h' hS hS' ho hu).1
  obtain ⟨c1, c2⟩ := codes_without h h' hS hS' ho hp hu
  obtain ⟨m1, m2⟩ := constructors_mentioned h h' hS hS' ho hu
  have hc : (during (P.without gone) out'.facts).codes = (during P out.facts).codes := by
    funext o
    show (if ∃ f ∈ (P.without gone).funcs, P.env.funcObj f = o then none else out'.facts.codes o) =
      if ∃ f ∈ P.funcs, P.env.funcObj f = o then none else out.facts.codes o
    by_cases hg : ∃ g ∈ P.funcs, P.env.funcObj g = o
    · rw [if_pos hg]
      obtain ⟨g, hg, rfl⟩ := hg
      split
      · rfl
      · rename_i hn
        refine c2 g hg ?_
        cases hx : gone g with
        | true => rfl
        | false => exact absurd ⟨g, mem_without.2 ⟨hg, hx⟩, rfl⟩ hn
    · rw [if_neg hg, if_neg]
      · exact c1 o fun g h1 _ he => hg ⟨g, h1, he⟩
      · rintro ⟨g, h1, h2⟩; exact hg ⟨g, (mem_without.1 h1).1, h2⟩
  rcases plan_given hu (a := during P out.facts) (b := during (P.without gone) out'.facts) ht m1 (fun o _ => congrFun hc o) (m2 f hf) with
    ⟨z, hz, hgz⟩ | key
  · rw [hu.uncalled f hf z hz] at hgz; cases hgz
  · exact key

/-- What other functions reach is not removed. -/
theorem reach_kept (hu : Unused P out gone) {f g : FnId} (hr : Reach (Calls (P.plan (during P out.facts))) f g) (hf : gone f = false) :
    gone g = false := by
  induction hr with
  | refl => exact hf
  | step hc _ ih => exact ih (hu.uncalled _ hf _ hc)

theorem interfaces_without (h : Collected P S strict out) (h' : Collected (P.without gone) S' strict' out') (hS : S.Fair)
    (hS' : S'.Fair) (ho : Objects P) (hp : Interfaces.Program P.ifaces) (o : Object) :
    (out.facts.interface o = none ∧ out'.facts.interface o = none) ∨
    ∃ ms ms', out.facts.interface o = some ms ∧ out'.facts.interface o = some ms' ∧ ms.Perm ms' := by
  obtain ⟨s, h⟩ := h
  obtain ⟨s', h'⟩ := h'
  obtain ⟨a1, a2⟩ := h.interfaces_exact_partial hS ho hp
  obtain ⟨b1, b2⟩ := h'.interfaces_exact_partial hS' (objects_without ho) hp
  by_cases hd : ∃ d ∈ P.ifaces, d.obj = o
  · obtain ⟨d, hd, rfl⟩ := hd
    cases ho : out.facts.interface d.obj with
    | none =>
      cases ho' : out'.facts.interface d.obj with
      | none => exact .inl ⟨rfl, rfl⟩
      | some ms' =>
        obtain ⟨m, C, hh⟩ := (b1 d hd).1.1 ⟨ms', ho'⟩
        obtain ⟨ms, hms⟩ := (a1 d hd).1.2 ⟨m, C, hh⟩
        rw [ho] at hms; cases hms
    | some ms =>
      obtain ⟨m, C, hh⟩ := (a1 d hd).1.1 ⟨ms, ho⟩
      obtain ⟨ms', hms'⟩ := (b1 d hd).1.2 ⟨m, C, hh⟩
      obtain ⟨k1, k2⟩ := (a1 d hd).2 ms ho
      obtain ⟨l1, l2⟩ := (b1 d hd).2 ms' hms'
      exact .inr ⟨ms, ms', rfl, hms', perm_of_keys k1 l1 fun m C => by rw [k2, l2]; rfl⟩
  · have k : ∀ d ∈ P.ifaces, d.obj ≠ o := fun d hd' he => hd ⟨d, hd', he⟩
    rw [a2 o k]
    have := b2 o k
    rw [this]
    exact (SameFacts.refl P.env.facts).interface o

theorem analysed_without (h : Collected P S strict out) (h' : Collected (P.without gone) S' strict' out') (hS : S.Fair)
    (hS' : S'.Fair) (ho : Objects P) (hp : Interfaces.Program P.ifaces) (hu : Unused P out gone) {f g : FnId} {c : FuncCodes}
    (hf : gone f = false) (hc : Compared P f c) (hr : Reach (Calls (P.plan (during P out.facts))) f g) :
    Analysed (P.without gone) out'.facts g := by
  have hplan : ∀ g, Reach (Calls (P.plan (during P out.facts))) f g →
      (P.without gone).plan (during (P.without gone) out'.facts) g = P.plan (during P out.facts) g :=
    fun g hg => plan_without h h' hS hS' ho hp hu (reach_kept hu hg hf)
  exact ⟨f, c, (compared_without hu).2 ⟨hc, hf⟩, (Edits.reach_local hplan).1 hr⟩

theorem perm_append_filter {α : Type} (p : α → Bool) : ∀ l : List α, l.Perm (l.filter p ++ l.filter fun x => !p x)
  | [] => .nil
  | a :: l => by
    by_cases h : p a = true
    · simp only [List.filter_cons, h, if_true, Bool.not_true, Bool.false_eq_true, if_false, List.cons_append]
      exact (perm_append_filter p l).cons a
    · simp only [List.filter_cons, h, Bool.false_eq_true, if_false, Bool.not_false, if_true]
      exact ((perm_append_filter p l).cons a).trans (by simpa [h] using List.perm_middle.symm)

/-- **C61.** Unused functions are removed from a package.  Then error types, interfaces, error constructors and codes of all other
functions, and the reports about types, interfaces, other functions' signatures, and in all bodies analysed for the declarations of
other functions are the same as before, in whatever order the two runs go. -/
theorem unaffected (h : runVerify P S strict = .ok out) (h' : runVerify (P.without gone) S' strict' = .ok out') (hS : S.Fair)
    (hS' : S'.Fair) (ho : Objects P) (hp : Interfaces.Program P.ifaces) (hu : Unused P out gone) : Unaffected P gone out out' := by
  have ho' : Objects (P.without gone) := objects_without ho
  obtain ⟨t1, t2⟩ := types_without (collected h) (collected h') hS hS' ho hu
  obtain ⟨c1, c2⟩ := codes_without (collected h) (collected h') hS hS' ho hp hu
  obtain ⟨k1, k2⟩ := constructors_without (collected h) (collected h') hS hS' ho hu
  refine ⟨t1, t2, interfaces_without (collected h) (collected h') hS hS' ho hp, ?_, ?_, k1, c1, fun g hg hgg => ⟨c2 g hg hgg, k2 g hg hgg⟩, ?_⟩
  · obtain ⟨s, h⟩ := ran_iff.1 h
    obtain ⟨s', h'⟩ := ran_iff.1 h'
    have hi : SameImports ((P.without gone).at_ s'.tagged) (P.at_ s.tagged) := by
      refine fun id m C => Iff.trans ?_ ?_ (b := ∃ ms, IfaceSpec.Recorded P.env id ms ∧ (m, C) ∈ ms)
      · exact sameImports (env := (P.without gone).at_ s'.tagged) (env' := P.env) rfl h'.toPrepared.tagged_rest.2.2 id m C
      · exact sameImports (env := P.env) (env' := P.at_ s.tagged) rfl h.toPrepared.tagged_rest.2.2.symm id m C
    exact Interfaces.reports_same (h'.toPrepared.iface_fair hS' ho') (h.toPrepared.iface_fair hS ho) rfl rfl rfl
      (fun d x => clashes_congr (env := (P.without gone).at_ s'.tagged) (env' := P.at_ s.tagged) rfl rfl hi) hp hS'.ifaceNames
      hS.ifaceNames h'.find h.find
  · obtain ⟨s, h⟩ := ran_iff.1 h
    obtain ⟨s', h'⟩ := ran_iff.1 h'
    let each : FnId → List ClaimDiag := fun f => match checkFunctionReturnsError P.env (P.env.func f).type with
      | .ok r => r.2
      | .error _ => []
    have e : out.signatures = (S.functions P.collected).flatMap each := signatures_list (env := P.at_ s.collected) h.funcs
    have e' : out'.signatures = (S'.functions (P.without gone).collected).flatMap each := signatures_list (env := (P.without gone).at_ s'.collected) h'.funcs
    refine ⟨(P.collected.filter gone).flatMap each, ?_, ?_⟩
    · rw [e, e', ← List.flatMap_append]
      refine perm_flatMap ((hS.functions _).trans ?_) _
      refine (perm_append_filter (fun f => !gone f) P.collected).trans ?_
      rw [← collected_without hu]
      simp only [Bool.not_not]
      exact (hS'.functions _).symm.append_right _
    · intro x hx
      obtain ⟨g, hg, hx⟩ := List.mem_flatMap.1 hx
      obtain ⟨hg, hgg⟩ := List.mem_filter.1 hg
      refine ⟨g, (List.mem_filter.1 hg).1, hgg, ?_⟩
      revert hx
      show x ∈ (match checkFunctionReturnsError P.env (P.env.func g).type with | .ok r => r.2 | .error _ => []) → _
      unfold checkFunctionReturnsError
      cases hr : (P.env.func g).type.results with
      | none => intro hx; cases hx
      | some fields =>
        dsimp only
        cases hl : fields.getLast? with
        | none => intro hx; cases hx
        | some last =>
          dsimp only
          split
          · rename_i hsp
            split at hsp <;> cases hsp
            · intro hx; cases hx
            · intro hx
              obtain ⟨r, hr', hx⟩ := List.mem_filterMap.1 hx
              split at hx
              · cases hx; exact ⟨fields, rfl, r, hr', rfl⟩
              · cases hx
          · intro hx; cases hx
  · intro f c g hf hc hr
    have ha : Analysed P out.facts g := ⟨f, c, hc, hr⟩
    have ha' := analysed_without (collected h) (collected h') hS hS' ho hp hu hf hc hr
    rw [(bodies_once h hS ho hp g).1 (Adoption.looked ha), (bodies_once h' hS' ho' hp g).1 (Adoption.looked ha')]
    unfold seen
    rw [if_pos ha, if_pos ha', plan_without (collected h) (collected h') hS hS' ho hp hu (reach_kept hu hr hf)]

/-- **C61.** The reports about declarations are the same, except that those about the functions removed are missing. -/
theorem declarations_unaffected (h : runVerify P S strict = .ok out) (h' : runVerify (P.without gone) S' strict = .ok out') (hS : S.Fair)
    (hS' : S'.Fair) (hn : P.funcs.Nodup) (hu : Unused P out gone) :
    ∃ (fs fs' : List FnId) (each : FnId → Option ClaimDiag), fs.Nodup ∧ (∀ f, f ∈ fs ↔ Kept P f ∧ ReturnsError P f) ∧
      fs'.Perm (fs.filter fun f => !gone f) ∧ out.claims = fs.filterMap each ∧ out'.claims = fs'.filterMap each := by
  obtain ⟨-, fs, h1, h2, e, h3, h4⟩ := declaration_reports_exact h hS hn
  obtain ⟨-, fs', h1', h2', e', h3', h4'⟩ := declaration_reports_exact h' hS' (hn.filter _)
  have he : e' = e := by
    funext f
    refine Option.ext fun x => ?_
    rw [h3', h3]; rfl
  subst he
  refine ⟨fs, fs', e', h1, h2, (List.perm_ext_iff_of_nodup h1' (h1.filter _)).2 fun f => ?_, h4, h4'⟩
  rw [h2', List.mem_filter, h2, kept_without hu]
  have : ReturnsError (P.without gone) f ↔ ReturnsError P f := Iff.rfl
  rw [this]
  simp only [Bool.not_eq_true']
  exact ⟨fun ⟨⟨a, b⟩, c⟩ => ⟨⟨a, c⟩, b⟩, fun ⟨⟨a, c⟩, b⟩ => ⟨⟨a, b⟩, c⟩⟩

/-- **C61.** The comparison of another function with its declaration has the same result: it is reported, with the same text, exactly
if it was before.

Partial: functions that can reach a literal calling back are excluded, as in `mismatches_exact_partial`. -/
theorem comparison_unaffected_partial (h : runVerify P S strict = .ok out) (h' : runVerify (P.without gone) S' strict' = .ok out')
    (hS : S.Fair) (hS' : S'.Fair) (ho : Objects P) (hp : Interfaces.Program P.ifaces) (hu : Unused P out gone) {f : FnId}
    (hf : gone f = false) (hl : CallGraph.Settled (P.plan (during P out.facts)) f) (text : GoString) :
    (f, text) ∈ out'.mismatches ↔ (f, text) ∈ out.mismatches := by
  have hplan : ∀ g, Reach (Calls (P.plan (during P out.facts))) f g →
      (P.without gone).plan (during (P.without gone) out'.facts) g = P.plan (during P out.facts) g :=
    fun g hg => plan_without (collected h) (collected h') hS hS' ho hp hu (reach_kept hu hg hf)
  rw [(mismatches_exact_partial h hS ho hp).1 f hl,
    (mismatches_exact_partial h' hS' (objects_without ho) hp).1 f (Edits.settled_local hplan hl)]
  simp only [compared_without hu, hf, and_true, Edits.codes_local hplan]

/-- **C61.** Nothing is said about the functions removed. -/
theorem removed_silent (h' : runVerify (P.without gone) S' strict' = .ok out') (hS' : S'.Fair) (ho : Objects P)
    (hp : Interfaces.Program P.ifaces) {g : FnId} (hg : gone g = true) (text : GoString) : (g, text) ∉ out'.mismatches := by
  intro hm
  obtain ⟨c, _, _, ⟨hk, -⟩, -⟩ := (undeclared_derivable h' hS' (objects_without ho) hp).1 g _ hm
  have := mem_without.1 (Prepared.kept_sub hk)
  rw [hg] at this
  cases this.2

/-! ## Conversions -/

open ConvSpec Conversions

/-- The functions `gone` do not matter for conversions either: those with a declaration are not referred to at all, no body leads to any
of them when conversions are checked, none is a method of a type, and whatever else they lead to is also analysed for another
declaration. -/
structure Aside (P : Package) (out : Outcome) (gone : FnId → Bool) : Prop where
  unmentioned : ∀ g ∈ P.funcs, gone g = true → ∀ c, Compared P g c → 
    ¬ ((∃ n, P.env.callee n = some (P.env.funcObj g)) ∨ (∃ n, P.env.uses n = some (P.env.funcObj g)) ∨
      ∃ n r, P.env.selection n = some (r, P.env.funcObj g))
  uncalled : ∀ f, gone f = false → ∀ g, Calls (P.plan out.facts) f g → gone g = false
  noMethods : ∀ g ∈ P.funcs, gone g = true → ∀ T m, P.env.methodSet T m ≠ some (P.env.funcObj g)
  others : ∀ f c g, gone f = true → Compared P f c → Reach (Calls (P.plan (during P out.facts))) f g → gone g = false →
    ∃ f' c', gone f' = false ∧ Compared P f' c' ∧ Reach (Calls (P.plan (during P out.facts))) f' g

variable (h : runVerify P S strict = .ok out) (h' : runVerify (P.without gone) S' strict' = .ok out') (hS : S.Fair)
  (hS' : S'.Fair) (ho : Objects P) (hp : Interfaces.Program P.ifaces) (hu : Unused P out gone) (ha : Aside P out gone)

theorem seen_without (h : Collected P S strict out) (h' : Collected (P.without gone) S' strict' out') (hS : S.Fair)
    (hS' : S'.Fair) (ho : Objects P) (hp : Interfaces.Program P.ifaces) (hu : Unused P out gone) (ha : Aside P out gone)
    {f : FnId} (hf : gone f = false) : seen (P.without gone) out'.facts f = seen P out.facts f := by
  have hplan := fun {f} => plan_without h h' hS hS' ho hp hu (f := f)
  have ht := (types_without h h' hS hS' ho hu).1
  obtain ⟨c1, c2⟩ := codes_without h h' hS hS' ho hp hu
  obtain ⟨m1, m2⟩ := constructors_mentioned h h' hS hS' ho hu
  have hiff : Analysed (P.without gone) out'.facts f ↔ Analysed P out.facts f := by
    constructor
    · rintro ⟨g, c, hc, hr⟩
      obtain ⟨hc, hg⟩ := (compared_without hu).1 hc
      refine ⟨g, c, hc, (Edits.reach_local (plan' := (P.without gone).plan (during (P.without gone) out'.facts)) fun x hx => ?_).2 hr⟩
      exact hplan (reach_kept hu hx hg)
    · rintro ⟨g, c, hc, hr⟩
      cases hg : gone g with
      | false => exact analysed_without h h' hS hS' ho hp hu hg hc hr
      | true =>
        obtain ⟨g', c', k1, k2, k3⟩ := ha.others g c f hg hc hr hf
        exact analysed_without h h' hS hS' ho hp hu k1 k2 k3
  unfold seen
  by_cases hx : Analysed P out.facts f
  · rw [if_pos hx, if_pos (hiff.2 hx), hplan hf]
  · rw [if_neg hx, if_neg fun k => hx (hiff.1 k)]
    have hc : ∀ o, Analyse.Mentioned P.env o → out'.facts.codes o = out.facts.codes o := by
      intro o hm
      by_cases hg : ∃ g ∈ P.funcs, gone g = true ∧ P.env.funcObj g = o
      · obtain ⟨g, h1, h2, rfl⟩ := hg
        rw [c2 g h1 h2]
        cases hx : out.facts.codes (P.env.funcObj g) with
        | none => rfl
        | some C =>
          obtain ⟨c, d1, -⟩ := ((h.codes hS ho hp).1 g h1 C).1 hx
          exact absurd hm (ha.unmentioned g h1 h2 c d1)
      · exact c1 o fun g h1 h2 he => hg ⟨g, h1, h2, he⟩
    rcases plan_given hu (a := out.facts) (b := out'.facts) ht m1 hc (m2 f hf) with ⟨z, hz, hgz⟩ | key
    · rw [ha.uncalled f hf z hz] at hgz; cases hgz
    · exact key

include hu ha in
theorem seen_kept {f g : FnId} (hr : Reach (Calls (seen P out.facts)) f g) (hf : gone f = false) : gone g = false := by
  induction hr with
  | refl => exact hf
  | step hc _ ih =>
    refine ih ?_
    unfold Calls seen at hc
    split at hc
    · exact hu.uncalled _ hf _ hc
    · exact ha.uncalled _ hf _ hc

theorem inPackage_without {facts facts' : Facts} {n : Node} {w : Option FuncType}
    (hn : InPackage ((P.without gone).at_ facts') (P.without gone).top n w) : InPackage (P.at_ facts) P.top n w := by
  rcases hn with ⟨f, body, m, h1, h2, h3, h4⟩ | ⟨m, h1, h2⟩
  · exact .inl ⟨f, body, m, (List.mem_filter.1 h1).1, h2, h3, h4⟩
  · exact .inr ⟨m, (List.mem_filter.1 h1).1, h2⟩

include hu in
theorem at_without (facts : Facts) (facts' : Facts) :
    (P.without gone).at_ facts' = withFacts (P.at_ facts) facts' (collectFunctions P.decls (P.without gone).funcs).1 := by
  unfold Package.at_
  rw [start_without hu]
  rfl

include hu in
theorem at_with (facts : Facts) (facts' : Facts) :
    P.at_ facts = withFacts ((P.without gone).at_ facts') facts P.start.functions := by
  unfold Package.at_
  rw [start_without hu]
  rfl

theorem declares_without {facts facts' : Facts} (hu : Unused P out gone) {f : FnId} {m : GoString} {o : Object} :
    ConvSpec.Declares ((P.without gone).at_ facts') f m o ↔ ConvSpec.Declares (P.at_ facts) f m o := by
  rw [at_without hu facts facts']; exact Iff.rfl

theorem methods_kept {facts : Facts} (hu : Unused P out gone) {f : FnId} {m : GoString} {o : Object}
    (hd : ConvSpec.Declares (P.at_ facts) f m o) : gone f = false := by
  have hmem : f ∈ (collectFunctions P.decls P.funcs).2 m := hd.1
  rw [collectFunctions_methods] at hmem
  have h2 := List.mem_filter.1 hmem
  simp only [Bool.and_eq_true, Option.isSome_iff_ne_none] at h2
  cases hg : gone f with
  | false => rfl
  | true => exact absurd (hu.functions f h2.1 hg) h2.2.1

include h h' hS hS' ho hp hu ha in
/-- **C61.** What is reported about conversions outside of the functions removed stays the same: at an expression not converted in one of
these functions, each code is listed for a method of an interface exactly if it was before.

Partial: as `Run.smuggled_iff_partial`. -/
theorem conversions_unaffected_partial {calls : CallKind} {e : NodeId} {i : Option Object} {m : GoString}
    (hf : Fine (P.at_ out.facts) P.conv calls P.top)
    (hl : ∀ T S, ConvertedTo (P.at_ out.facts) P.conv calls P.top T S e → MethodSettled (P.at_ out.facts) (seen P out.facts) S m)
    (he : ∀ T S, ConvertedTo (P.at_ out.facts) P.conv calls P.top T S e → ConvertedTo (P.at_ out.facts) P.conv calls (P.without gone).top T S e)
    (x : GoString) : ReportedSmuggled out' e i m x ↔ ReportedSmuggled out e i m x := by
  obtain ⟨c1, c2⟩ := codes_without (collected h) (collected h') hS hS' ho hp hu
  have hi := interfaces_without (collected h) (collected h') hS hS' ho hp
  have hnone : ∀ o, out'.facts.interface o = none ↔ out.facts.interface o = none := by
    intro o
    rcases hi o with ⟨k1, k2⟩ | ⟨ms, ms', k1, k2, -⟩ <;> simp [k1, k2]
  have hcode : ∀ {S : GoType} {ob : Object}, MethodOf (P.at_ out.facts) S m ob → out'.facts.codes ob = out.facts.codes ob := by
    intro S ob hm
    refine c1 ob fun g h1 h2 heq => ?_
    subst heq
    cases hm with
    | direct k => exact ha.noMethods g h1 h2 _ _ k
    | pointer _ _ k => exact ha.noMethods g h1 h2 _ _ k
  have hseen : ∀ {f}, gone f = false → ∀ g, Reach (Calls (seen P out.facts)) f g → seen (P.without gone) out'.facts g = seen P out.facts g :=
    fun hk g hg => seen_without (collected h) (collected h') hS hS' ho hp hu ha (seen_kept hu ha hg hk)
  have conv : ∀ {T S}, ConvertedTo ((P.without gone).at_ out'.facts) P.conv calls (P.without gone).top T S e →
      ConvertedTo (P.at_ out.facts) P.conv calls P.top T S e := by
    rintro T S ⟨n, w, k1, k2⟩
    refine ⟨n, w, inPackage_without k1, ?_⟩
    rw [at_with hu out.facts out'.facts]
    exact converts_facts k2
  have conv' : ∀ {T S}, ConvertedTo (P.at_ out.facts) P.conv calls P.top T S e →
      ConvertedTo ((P.without gone).at_ out'.facts) P.conv calls (P.without gone).top T S e := by
    intro T S k
    obtain ⟨n, w, k1, k2⟩ := he T S k
    refine ⟨n, w, k1, ?_⟩
    rw [at_without hu out.facts out'.facts]
    exact converts_facts k2
  have meth : ∀ {S ob}, MethodOf ((P.without gone).at_ out'.facts) S m ob ↔ MethodOf (P.at_ out.facts) S m ob := by
    intro S ob
    constructor
    · intro k; rw [at_with hu out.facts out'.facts]; exact methodOf_facts k
    · intro k; rw [at_without hu out.facts out'.facts]; exact methodOf_facts k
  rw [smuggled_iff_partial h hS ho hp hf hl x, smuggled_iff_partial h' hS' (objects_without ho) hp
    (calls := calls) (e := e) (i := i) (m := m) ?_ ?_ x]
  · constructor
    · rintro ⟨T, S, ms', al, h1, h2, h3, ⟨o, h4, h4'⟩, h5, h6, h7, h8⟩
      rcases hi o with ⟨-, k⟩ | ⟨ms, ms1, k1, k2, k3⟩
      · exact nomatch k.symm.trans h4'
      · have : ms1 = ms' := Option.some.inj (k2.symm.trans h4')
        subst this
        refine ⟨T, S, ms, al, conv h1, h2, h3, ⟨o, h4, k1⟩, h5, k3.mem_iff.2 h6, ?_, h8⟩
        cases h7 with
        | declared j1 j2 j3 =>
          have j1 := meth.1 j1
          exact .declared j1 ((hcode j1).symm.trans j2) j3
        | found j1 j2 j3 j4 =>
          have j1 := meth.1 j1
          have j3 := (declares_without (facts := out.facts) hu).1 j3
          exact .found j1 ((hcode j1).symm.trans j2) j3 ((Edits.codes_local (hseen (methods_kept hu j3)) x).2 j4)
    · rintro ⟨T, S, ms, al, h1, h2, h3, ⟨o, h4, h4'⟩, h5, h6, h7, h8⟩
      rcases hi o with ⟨k, -⟩ | ⟨ms1, ms', k1, k2, k3⟩
      · exact nomatch k.symm.trans h4'
      · have : ms1 = ms := Option.some.inj (k1.symm.trans h4')
        subst this
        refine ⟨T, S, ms', al, conv' h1, h2, h3, ⟨o, h4, k2⟩, h5, k3.mem_iff.1 h6, ?_, h8⟩
        cases h7 with
        | declared j1 j2 j3 => exact .declared (meth.2 j1) ((hcode j1).trans j2) j3
        | found j1 j2 j3 j4 =>
          exact .found (meth.2 j1) ((hcode j1).trans j2) ((declares_without (facts := out.facts) hu).2 j3)
            ((Edits.codes_local (hseen (methods_kept hu j3)) x).1 j4)
  · intro n w hn
    have := hf n w (inPackage_without hn)
    rw [at_without hu out.facts out'.facts]
    exact ⟨wellTyped_facts hnone this.1, supported_facts hnone this.2⟩
  · intro T S hc ob f k1 k2 k3
    have k1 := meth.1 k1
    have k3 := (declares_without (facts := out.facts) hu).1 k3
    exact Edits.settled_local (hseen (methods_kept hu k3)) (hl T S (conv hc) ob f k1 ((hcode k1).symm.trans k2) k3)

/-! ## Example

The package with the wrong declaration of `F` (`Props/Corrections.lean`), and one more function:

```go
// Errors:
//
//   - q-error -- never
func H() error { return g() }
``` -/

def bodyH : List Node := [.ret 20 [.call 21 (.ident ⟨22, b!"g", some 3⟩) []]]

def grown : Package :=
  { wrong with
    env := { wrong.env with funcs := wrong.env.funcs ++ [⟨117, some ⟨118, b!"H", none⟩, ⟨[], some [⟨[], 109⟩], 510⟩, some bodyH, 520, 600⟩] }
    decls := { wrong.decls with
      name := fun f => if f = 5 then b!"H" else wrong.decls.name f
      doc := fun f => if f = 5 then some b!"Errors:\n\n  - q-error -- never\n" else wrong.decls.doc f }
    funcs := [3, 5, 0, 1, 2, 4]
    top := [.func 3, .func 5, .func 0, .func 1, .func 2, .func 4, .node varG] }

def isH : FnId → Bool := fun f => f == 5

def grownOut : Outcome :=
  match runVerify grown schedule false with
  | .ok out => out
  | .error _ => ⟨pkg.env.facts, [], [], [], [], [], [], []⟩

theorem grown_ran : runVerify grown schedule false = .ok grownOut := rfl

def shrunkOut : Outcome :=
  match runVerify (grown.without isH) schedule' true with
  | .ok out => out
  | .error _ => ⟨pkg.env.facts, [], [], [], [], [], [], []⟩

theorem shrunk_ran : runVerify (grown.without isH) schedule' true = .ok shrunkOut := rfl

theorem grown_objects : Objects grown where
  funcs := by decide
  distinct := by decide
  methods := pkg_objects.methods
  apart := by
    intro f hf d hd m hm
    cases List.mem_singleton.1 hd
    simp only [getter, List.mem_singleton, IfaceElement.method.injEq] at hm
    subst hm
    revert f; decide
  imported := fun _ _ => ⟨rfl, rfl⟩
  importedMethods := pkg_objects.importedMethods
  interfaces := pkg_objects.interfaces
  importedInterfaces := pkg_objects.importedInterfaces
  importedTables := pkg_objects.importedTables

theorem grown_unused : Unused grown grownOut isH where
  functions g _ hg := by rw [show g = 5 by simpa [isH] using hg]; rfl
  names g _ hg f hf hf' _ := by
    rw [show g = 5 by simpa [isH] using hg]
    revert f; decide
  uncalled f hf g hg := by
    have key : ∀ f, isH f = false → (grown.plan (during grown grownOut.facts) f).targets = if f = 0 then [2, 1] else [] := by
      intro f hf
      match f with
      | 0 | 1 | 2 | 3 | 4 => rfl
      | 5 => cases hf
      | f + 6 => simp [Package.plan, Package.at_, Package.start, Analyse.plan, Analyse.bodyPlan, Env.func, grown, wrong, Package.documented, pkg, pkgEnv, Plan.targets]
    have hg : g ∈ (grown.plan (during grown grownOut.facts) f).targets := hg
    rw [key f hf] at hg
    split at hg
    · simp only [List.mem_cons, List.not_mem_nil, or_false] at hg
      rcases hg with rfl | rfl <;> rfl
    · cases hg
  constructors g _ hg c hc hn := by
    rw [show g = 5 by simpa [isH] using hg] at hc
    obtain ⟨-, -, r, h1, -, h3⟩ := hc
    have e : findErrorDocs (grown.decls.doc 5) = .ok ⟨[b!"q-error"], [], false⟩ := by decide +kernel
    rw [e] at h1
    cases h1
    rcases h3 with ⟨-, h3, -⟩ | ⟨h3, -⟩
    · exact absurd h3 hn
    · exact absurd rfl h3
  declared f _ hd := by
    match f with
    | 0 | 1 | 2 | 3 | 4 | 5 => decide
    | f + 6 => simp [Env.func, grown, wrong, Package.documented, pkg, pkgEnv] at hd

/-- The hypotheses are met. -/
theorem grown_unaffected : Unaffected grown isH grownOut shrunkOut :=
  unaffected grown_ran shrunk_ran schedule_fair schedule'_fair grown_objects pkg_program grown_unused

/-- Only the report about `H` disappears, and the codes recorded for it. -/
theorem grown_effect : (5, b!"missing codes: [c-error] unused codes: [q-error]") ∈ grownOut.mismatches ∧
    (0, b!"missing codes: [b-error c-error] unused codes: [z-error]") ∈ grownOut.mismatches ∧
    shrunkOut.mismatches = [(0, b!"missing codes: [b-error c-error] unused codes: [z-error]")] ∧
    grownOut.facts.codes 75 = some [b!"q-error"] ∧ shrunkOut.facts.codes 75 = none := by decide +kernel

theorem grown_targets (facts : Facts) (hf : facts = grownOut.facts ∨ facts = during grown grownOut.facts) (f : FnId) :
    (∀ g ∈ (grown.plan facts f).targets, g ∈ [1, 2]) ∧ (grown.plan facts f).visits = [] := by
  rcases hf with rfl | rfl
  all_goals
    match f with
    | 0 => exact ⟨show ∀ g ∈ _, _ from by decide +kernel, rfl⟩
    | 1 => exact ⟨show ∀ g ∈ _, _ from by decide +kernel, rfl⟩
    | 2 => exact ⟨show ∀ g ∈ _, _ from by decide +kernel, rfl⟩
    | 3 => exact ⟨show ∀ g ∈ _, _ from by decide +kernel, rfl⟩
    | 4 => exact ⟨show ∀ g ∈ _, _ from by decide +kernel, rfl⟩
    | 5 => exact ⟨show ∀ g ∈ _, _ from by decide +kernel, rfl⟩
    | f + 6 => simp [Package.plan, Package.at_, Package.start, Analyse.plan, Analyse.bodyPlan, Env.func, grown, wrong, Package.documented, pkg, pkgEnv, Plan.visits, Plan.targets]

theorem grown_compared : ∃ c, Compared grown 0 c := by
  refine ⟨⟨[b!"a-error", b!"z-error"], none⟩, ⟨[3, 5], [1, 2, 4], rfl, .inr (by decide)⟩, ⟨[], ⟨[], 116⟩, rfl, by decide⟩, 
    ⟨⟨[b!"a-error", b!"z-error"], [], false⟩, by decide +kernel, rfl, .inl ⟨rfl, rfl, .inl (by simp)⟩⟩⟩

theorem grown_aside : Aside grown grownOut isH where
  unmentioned g _ hg c _ := by
    rw [show g = 5 by simpa [isH] using hg]
    rintro (⟨n, hn⟩ | ⟨n, hn⟩ | ⟨n, r, hn⟩)
    · have hn : (if n = 3 then some 71 else if n = 21 then some 72 else none) = some 75 := hn
      split at hn
      · cases hn
      · split at hn <;> cases hn
    · cases hn
    · cases hn
  uncalled f _ g hg := by
    have := (grown_targets _ (.inl rfl) f).1 g hg
    clear hg
    revert g; decide
  noMethods g _ hg T m hm := by
    rw [show g = 5 by simpa [isH] using hg] at hm
    have hm : (if T = .named 8 ∧ m = b!"Get" then some 74 else if T = .named 20 ∧ m = b!"Get" then some 90
      else if T = .pointer (.named 7) ∧ m = b!"Code" then some 73 else none) = some 75 := hm
    split at hm
    · cases hm
    · split at hm
      · cases hm
      · split at hm <;> cases hm
  others f c g hf hcf hr hg := by
    obtain ⟨c', hc'⟩ := grown_compared
    refine ⟨0, c', rfl, hc', ?_⟩
    have : g = f ∨ g ∈ [1, 2] := by
      clear hf hcf
      induction hr with
      | refl => exact .inl rfl
      | step hc _ ih =>
        rcases ih hg with rfl | h
        · exact .inr ((grown_targets _ (.inr rfl) _).1 _ hc)
        · exact .inr h
    rcases this with rfl | h
    · rw [hf] at hg; cases hg
    · refine .step (b := g) ?_ (.refl g)
      show g ∈ (grown.plan (during grown grownOut.facts) 0).targets
      have e : (grown.plan (during grown grownOut.facts) 0).targets = [2, 1] := rfl
      rw [e]
      simp only [List.mem_cons, List.not_mem_nil, or_false] at h ⊢
      exact h.symm

theorem grown_settled (f : FnId) : CallGraph.Settled (seen grown grownOut.facts) f := by
  refine CallGraph.NoLiteralCycle.settled ?_ f
  intro f g hg
  unfold seen at hg
  split at hg
  · rw [(grown_targets _ (.inr rfl) f).2] at hg; cases hg
  · rw [(grown_targets _ (.inl rfl) f).2] at hg; cases hg

theorem grown_fine : Fine (grown.at_ grownOut.facts) grown.conv Linked.onlyCalls grown.top := Linked.plainTop_fine (by decide)

/-- The literal `Impl{}` is not converted in `H`, and what is reported there stays the same. -/
theorem grown_conversions (i : Option Object) (m x : GoString) : ReportedSmuggled shrunkOut 63 i m x ↔ ReportedSmuggled grownOut 63 i m x := by
  refine conversions_unaffected_partial grown_ran shrunk_ran schedule_fair schedule'_fair grown_objects pkg_program grown_unused grown_aside
    grown_fine (fun _ _ _ _ f _ _ _ => grown_settled f) ?_ x
  rintro T S ⟨n, w, ⟨f, body, n0, h1, h2, h3, h4⟩ | ⟨n0, h1, h4⟩, hc⟩
  · by_cases hf : f = 5
    · subst hf
      cases h2
      obtain ⟨rfl, hm⟩ := around_list h4 h3 (by decide)
      simp only [bodyH, Node.inspectList, Node.inspect, if_true, List.append_nil, List.mem_cons,
        List.not_mem_nil, or_false] at hm
      generalize h63 : (63 : NodeId) = e at hc
      rcases hm with rfl | rfl | rfl
      · cases hc with
        | result k1 k2 k3 k4 k5 =>
          have := List.mem_of_getElem? k5
          rw [List.mem_singleton.1 this] at h63
          cases h63
        | resultMany => cases h63
      · cases hc with
        | argument k1 k2 k3 k4 k5 k6 => cases k5
        | variadicArgument k1 k2 k3 k4 k5 k6 k7 k8 => cases k7
        | spreadArgument k1 k2 k3 k4 k5 k6 => cases k6
      · cases hc
    · exact ⟨n, w, .inl ⟨f, body, n0, List.mem_filter.2 ⟨h1, by simpa [isH] using hf⟩, h2, h3, h4⟩, hc⟩
  · exact ⟨n, w, .inr ⟨n0, List.mem_filter.2 ⟨h1, rfl⟩, h4⟩, hc⟩

theorem grown_reported : ReportedSmuggled shrunkOut 63 (some 20) b!"Get" b!"x-error" :=
  (grown_conversions _ _ _).2 ⟨[b!"x-error"], by decide +kernel, by decide⟩

end Props.Removal
end Serum
