import Verif.Props.Edits

/-!
# C55 — adopting the conventions function by function

The README promises that declarations can be added "at a rate of your choosing".  Here is what a change of the doc comments of some
functions does to the results of the next run, and what it leaves alone.
-/

namespace Serum.Props.Adoption
open Serum RunSpec Run

variable {P : Package} {S S' : Schedule} {strict strict' : Bool} {out out' : Outcome} {doc : FnId → Option GoString}

/-- The same functions declare the same parameters to be error codes, before and after. -/
def SameParams (P : Package) (doc : FnId → Option GoString) : Prop :=
  ∀ f p, (∃ c, Compared P f c ∧ c.param = some p) ↔ ∃ c, Compared (P.documented doc) f c ∧ c.param = some p

/-- What a run with other doc comments has in common with the run before. -/
structure Unaffected (P : Package) (doc : FnId → Option GoString) (out out' : Outcome) : Prop where
  /-- the error types found, and the reports about them -/
  types : out'.facts.errorType = out.facts.errorType
  tags : out'.tags = out.tags
  /-- the interfaces found, and the reports about them -/
  interfaces : ∀ o, (out.facts.interface o = none ∧ out'.facts.interface o = none) ∨
    ∃ ms ms', out.facts.interface o = some ms ∧ out'.facts.interface o = some ms' ∧ ms.Perm ms'
  ifaces : out'.ifaces.Perm out.ifaces
  /-- the reports about signatures -/
  signatures : out'.signatures.Perm out.signatures
  /-- the error constructors -/
  constructors : out'.facts.ctor = out.facts.ctor
  /-- the codes recorded, except for the functions whose comment was changed -/
  codes : ∀ o, (∀ f ∈ P.funcs, P.env.funcObj f = o → doc f = P.decls.doc f) → out'.facts.codes o = out.facts.codes o
  /-- the reports in all bodies analysed for a declaration both times -/
  bodies : ∀ g, Analysed P out.facts g → Analysed (P.documented doc) out'.facts g → reportedIn out' g = reportedIn out g

theorem looked {g : FnId} (h : Analysed P out.facts g) : LookedAt P out.facts g := by
  obtain ⟨f, c, hc, hr⟩ := h
  refine ⟨f, .inl ⟨c, hc⟩, ?_⟩
  have key : ∀ {a b : FnId}, Reach (Calls (P.plan (during P out.facts))) f a → Reach (Calls (P.plan (during P out.facts))) a b →
      Reach (Calls (seen P out.facts)) a b := by
    intro a b hfa hab
    induction hab with
    | refl a => exact .refl a
    | step hc' _ ih =>
      refine .step ?_ (ih (hfa.trans (.step hc' (.refl _))))
      unfold Calls seen
      rw [if_pos ⟨f, c, hc, hfa⟩]
      exact hc'
  exact key (.refl f) hr

theorem interfaces_documented (h : runVerify P S strict = .ok out) (h' : runVerify (P.documented doc) S' strict' = .ok out') (hS : S.Fair)
    (hS' : S'.Fair) (ho : Objects P) (hp : Interfaces.Program P.ifaces) (o : Object) :
    (out.facts.interface o = none ∧ out'.facts.interface o = none) ∨
    ∃ ms ms', out.facts.interface o = some ms ∧ out'.facts.interface o = some ms' ∧ ms.Perm ms' := by
  obtain ⟨s, h⟩ := ran_iff.1 h
  obtain ⟨s', h'⟩ := ran_iff.1 h'
  obtain ⟨a1, a2⟩ := h.interfaces_exact_partial hS ho hp
  obtain ⟨b1, b2⟩ := h'.interfaces_exact_partial hS' (objects_documented ho) hp
  by_cases hd : ∃ d ∈ P.ifaces, d.obj = o
  · obtain ⟨d, hd, rfl⟩ := hd
    cases ho : out.facts.interface d.obj with
    | none =>
      cases ho' : out'.facts.interface d.obj with
      | none => exact .inl ⟨rfl, rfl⟩
      | some ms' =>
        obtain ⟨m, C, hh⟩ := (b1 d hd).1.1 ⟨ms', ho'⟩
        obtain ⟨ms, hms⟩ := (a1 d hd).1.2 ⟨m, C, hh⟩
        rw [ho] at hms; cases hms
    | some ms =>
      obtain ⟨m, C, hh⟩ := (a1 d hd).1.1 ⟨ms, ho⟩
      obtain ⟨ms', hms'⟩ := (b1 d hd).1.2 ⟨m, C, hh⟩
      obtain ⟨k1, k2⟩ := (a1 d hd).2 ms ho
      obtain ⟨l1, l2⟩ := (b1 d hd).2 ms' hms'
      exact .inr ⟨ms, ms', rfl, hms', perm_of_keys k1 l1 fun m C => by rw [k2, l2]; rfl⟩
  · have k : ∀ d ∈ P.ifaces, d.obj ≠ o := fun d hd' he => hd ⟨d, hd', he⟩
    rw [a2 o k]
    have := b2 o k
    rw [this]
    exact (SameFacts.refl P.env.facts).interface o

/-- **C55.** The doc comments of some functions are changed (added, removed, corrected), but not the set of error code parameters.
Then error types, interfaces, error constructors, the codes of all functions with unchanged comments, and the reports about types,
interfaces, signatures and in bodies analysed both times are the same as before, in whatever order the two runs go. -/
theorem unaffected (h : runVerify P S strict = .ok out) (h' : runVerify (P.documented doc) S' strict' = .ok out') (hS : S.Fair)
    (hS' : S'.Fair) (ho : Objects P) (hp : Interfaces.Program P.ifaces) (hpar : SameParams P doc) : Unaffected P doc out out' := by
  have ho' : Objects (P.documented doc) := objects_documented ho
  have hplan := plan_of_params h h' hS hS' ho hp hpar
  have htag : out'.facts.errorType = out.facts.errorType ∧ out'.tags = out.tags := by
    obtain ⟨s, hr⟩ := ran_iff.1 h
    obtain ⟨s', hr'⟩ := ran_iff.1 h'
    have e := (tag_documented (P := P) (doc := doc) P.env.facts).symm.trans hr'.tag
    have e := hr.tag.symm.trans e
    simp only [Except.ok.injEq, Prod.mk.injEq] at e
    exact ⟨by rw [(hr.out_rest hS ho).2.1, (hr'.out_rest hS' ho').2.1, e.1], e.2.symm⟩
  refine ⟨htag.1, htag.2, interfaces_documented h h' hS hS' ho hp, ?_, ?_, ?_, ?_, ?_⟩
  · obtain ⟨s, h⟩ := ran_iff.1 h
    obtain ⟨s', h'⟩ := ran_iff.1 h'
    have hi : SameImports ((P.documented doc).at_ s'.tagged) (P.at_ s.tagged) := by
      refine fun id m C => Iff.trans ?_ ?_ (b := ∃ ms, IfaceSpec.Recorded P.env id ms ∧ (m, C) ∈ ms)
      · exact sameImports (env := (P.documented doc).at_ s'.tagged) (env' := P.env) rfl h'.toPrepared.tagged_rest.2.2 id m C
      · exact sameImports (env := P.env) (env' := P.at_ s.tagged) rfl h.toPrepared.tagged_rest.2.2.symm id m C
    exact Interfaces.reports_same (h'.toPrepared.iface_fair hS' ho') (h.toPrepared.iface_fair hS ho) rfl rfl rfl
      (fun d x => clashes_congr (env := (P.documented doc).at_ s'.tagged) (env' := P.at_ s.tagged) rfl rfl hi) hp hS'.ifaceNames
      hS.ifaceNames h'.find h.find
  · obtain ⟨s, h⟩ := ran_iff.1 h
    obtain ⟨s', h'⟩ := ran_iff.1 h'
    rw [signatures_list h.funcs, signatures_list h'.funcs]
    exact perm_flatMap ((hS'.functions _).trans (hS.functions _).symm) _
  · obtain ⟨a1, a2⟩ := exported_constructors h hS ho
    obtain ⟨b1, b2⟩ := exported_constructors h' hS' ho'
    funext o
    by_cases hf : ∃ f ∈ P.funcs, P.env.funcObj f = o
    · obtain ⟨f, hf, rfl⟩ := hf
      refine Option.ext fun n => (b1 f hf n).trans (Iff.trans ?_ (a1 f hf n).symm)
      constructor
      · rintro ⟨c, p, h1, h2, h3⟩
        obtain ⟨c', h1', h2'⟩ := (hpar f p).2 ⟨c, h1, h2⟩
        exact ⟨c', p, h1', h2', h3⟩
      · rintro ⟨c, p, h1, h2, h3⟩
        obtain ⟨c', h1', h2'⟩ := (hpar f p).1 ⟨c, h1, h2⟩
        exact ⟨c', p, h1', h2', h3⟩
    · have k1 : ∀ f ∈ P.funcs, P.env.funcObj f ≠ o := fun f hf' he => hf ⟨f, hf', he⟩
      exact (b2 o k1).trans (a2 o k1).symm
  · intro o hun
    obtain ⟨a1, a2, a3⟩ := exported_codes h hS ho hp
    obtain ⟨b1, b2, b3⟩ := exported_codes h' hS' ho' hp
    by_cases hf : ∃ f ∈ P.funcs, P.env.funcObj f = o
    · obtain ⟨f, hf, rfl⟩ := hf
      have hd := hun f hf rfl
      refine Option.ext fun C => (b1 f hf C).trans (Iff.trans ?_ (a1 f hf C).symm)
      constructor
      · rintro ⟨c, ⟨k1, k2, k3⟩, k4⟩; exact ⟨c, ⟨k1, k2, (declares_unchanged hd).1 k3⟩, k4⟩
      · rintro ⟨c, ⟨k1, k2, k3⟩, k4⟩; exact ⟨c, ⟨k1, k2, (declares_unchanged hd).2 k3⟩, k4⟩
    · have k1 : ∀ f ∈ P.funcs, P.env.funcObj f ≠ o := fun f hf' he => hf ⟨f, hf', he⟩
      by_cases hm : ∃ d ∈ P.ifaces, ∃ im, .method im ∈ d.elements ∧ P.methodObj im.ident.id = o
      · obtain ⟨d, hd, im, him, rfl⟩ := hm
        exact Option.ext fun C => (b2 d hd im him C).trans (a2 d hd im him C).symm
      · have k2 : ∀ d ∈ P.ifaces, ∀ im, .method im ∈ d.elements → P.methodObj im.ident.id ≠ o :=
          fun d hd im him he => hm ⟨d, hd, im, him, he⟩
        exact (b3 o k1 k2).trans (a3 o k1 k2).symm
  · intro g ha ha'
    rw [(bodies_once h hS ho hp g).1 (looked ha), (bodies_once h' hS' ho' hp g).1 (looked ha')]
    unfold seen
    rw [if_pos ha, if_pos ha', hplan]

/-- **C55.** The reports about declarations: at most one for each error-returning function, and the same as before for each function
whose comment is unchanged. -/
theorem declarations_unaffected (h : runVerify P S strict = .ok out) (h' : runVerify (P.documented doc) S' strict = .ok out') (hS : S.Fair)
    (hS' : S'.Fair) (hn : P.funcs.Nodup) :
    ∃ (fs fs' : List FnId) (each each' : FnId → Option ClaimDiag), fs.Nodup ∧ (∀ f, f ∈ fs ↔ Kept P f ∧ ReturnsError P f) ∧ fs'.Perm fs ∧
      out.claims = fs.filterMap each ∧ out'.claims = fs'.filterMap each' ∧ ∀ f, doc f = P.decls.doc f → each' f = each f := by
  obtain ⟨-, fs, h1, h2, e, h3, h4⟩ := declaration_reports_exact h hS hn
  obtain ⟨-, fs', h1', h2', e', h3', h4'⟩ := declaration_reports_exact h' hS' hn
  refine ⟨fs, fs', e, e', h1, h2, (List.perm_ext_iff_of_nodup h1' h1).2 fun f => by rw [h2, h2']; rfl, h4, h4', fun f hd => ?_⟩
  refine Option.ext fun x => ?_
  rw [h3', h3]
  unfold Objection Package.documented
  dsimp only
  rw [hd]

/-- **C55.** Declarations are only added: every function declared before is declared now.  Then every report in a body that was
analysed for a declaration before is made again, and none is added there. -/
theorem added (h : runVerify P S strict = .ok out) (h' : runVerify (P.documented doc) S' strict' = .ok out') (hS : S.Fair)
    (hS' : S'.Fair) (ho : Objects P) (hp : Interfaces.Program P.ifaces) (hpar : SameParams P doc)
    (hadd : ∀ f c, Compared P f c → ∃ c', Compared (P.documented doc) f c') {g : FnId} (hg : Analysed P out.facts g) :
    Analysed (P.documented doc) out'.facts g ∧ reportedIn out' g = reportedIn out g := by
  have hplan := plan_of_params h h' hS hS' ho hp hpar
  have : Analysed (P.documented doc) out'.facts g := by
    obtain ⟨f, c, hc, hr⟩ := hg
    obtain ⟨c', hc'⟩ := hadd f c hc
    exact ⟨f, c', hc', by rw [hplan]; exact hr⟩
  exact ⟨this, (unaffected h h' hS hS' ho hp hpar).bodies g hg this⟩

/-- **C55.** The comparison of a function with its declaration does not depend on what other functions declare: it is reported, with
the same text, exactly if it was before.

Partial: functions that can reach a literal calling back are excluded, as in `mismatches_exact_partial`. -/
theorem comparison_unaffected_partial (h : runVerify P S strict = .ok out) (h' : runVerify (P.documented doc) S' strict' = .ok out')
    (hS : S.Fair) (hS' : S'.Fair) (ho : Objects P) (hp : Interfaces.Program P.ifaces) (hpar : SameParams P doc) {f : FnId}
    (hl : CallGraph.Settled (P.plan (during P out.facts)) f) (hd : doc f = P.decls.doc f) (text : GoString) :
    (f, text) ∈ out'.mismatches ↔ (f, text) ∈ out.mismatches := by
  have hplan := plan_of_params h h' hS hS' ho hp hpar
  rw [(mismatches_exact_partial h hS ho hp).1 f hl,
    (mismatches_exact_partial h' hS' (objects_documented ho) hp).1 f (by rw [hplan]; exact hl), hplan]
  constructor
  · rintro ⟨c, mi, un, ⟨k1, k2, k3⟩, k⟩; exact ⟨c, mi, un, ⟨k1, k2, (declares_unchanged hd).1 k3⟩, k⟩
  · rintro ⟨c, mi, un, ⟨k1, k2, k3⟩, k⟩; exact ⟨c, mi, un, ⟨k1, k2, (declares_unchanged hd).2 k3⟩, k⟩

/-! ## Without declarations -/

/-- Nothing is declared for the function: it has no doc comment, or one in which no line is `Errors:` or starts with `Errors: none`
(white space aside). -/
def Undocumented (P : Package) (f : FnId) : Prop :=
  ∀ text, P.decls.doc f = some text → ∀ l ∈ DocGrammar.lines text, DocGrammar.Prose l

theorem Undocumented.read {f : FnId} (h : Undocumented P f) :
    ∃ r, findErrorDocs (P.decls.doc f) = .ok r ∧ r.codes = [] ∧ r.param = [] ∧ r.none = false := by
  cases hd : P.decls.doc f with
  | none => exact ⟨.empty, rfl, rfl, rfl, rfl⟩
  | some text =>
    obtain ⟨r, h1, h2, h3, h4⟩ := (ErrorDocs.parse_iff_grammar text _ _ _).2 (.nothing (h text hd))
    exact ⟨r, h1, List.eq_nil_iff_forall_not_mem.2 fun c => (h2 c).1, h3, h4⟩

theorem Undocumented.not_compared {f : FnId} (h : Undocumented P f) (c : FuncCodes) : ¬ Compared P f c := by
  rintro ⟨-, -, r, h1, h2, h3⟩
  obtain ⟨r', k1, k2, k3, k4⟩ := h.read
  rw [h1] at k1; cases k1
  rcases h3 with ⟨-, -, h3 | h3⟩ | ⟨h3, -⟩
  · exact h3 k2
  · rw [h3] at k4; cases k4
  · exact h3 k3

/-- **C55.** "Nothing is checked if a function doesn't contain the block": without `-strict`, a package none of whose functions has a
declaration gets no report about declarations and their functions, no codes and no constructors are recorded for its functions, and
reports in bodies come from methods looked at for conversions to interfaces with declared codes (and from what these call). -/
theorem undeclared_untouched (h : runVerify P S false = .ok out) (hS : S.Fair) (ho : Objects P) (hp : Interfaces.Program P.ifaces)
    (hu : ∀ f ∈ P.funcs, Undocumented P f) :
    out.claims = [] ∧ out.mismatches = [] ∧
    (∀ f ∈ P.funcs, out.facts.codes (P.env.funcObj f) = none ∧ out.facts.ctor (P.env.funcObj f) = none) ∧
    ∀ g, reportedIn out g ≠ [] → ∃ f, Asked (P.at_ out.facts) (checks P out.facts) f ∧ Reach (Calls (P.plan out.facts)) f g := by
  have hno : ∀ f c, ¬ Compared P f c := fun f c hc => (hu f (Prepared.kept_sub hc.1)).not_compared c hc
  refine ⟨?_, ?_, fun f hf => ⟨?_, ?_⟩, fun g hg => ?_⟩
  · rw [List.eq_nil_iff_forall_not_mem]
    intro x hx
    obtain ⟨f, hk, -, hx⟩ := ((declaration_reports_exact h hS ho.funcs).1 x).1 hx
    obtain ⟨r', k1, k2, k3, k4⟩ := (hu f (Prepared.kept_sub hk)).read
    rcases hx with ⟨e, he, -⟩ | ⟨r, hr, ⟨hx, -⟩ | ⟨hx, -⟩ | ⟨-, -, -, hx, -⟩⟩
    · rw [he] at k1; cases k1
    · rw [hr] at k1; cases k1; exact hx k3
    · rw [hr] at k1; cases k1; exact hx k3
    · cases hx
  · rw [List.eq_nil_iff_forall_not_mem]
    rintro ⟨f, text⟩ hm
    obtain ⟨c, _, _, hc, -⟩ := (undeclared_derivable h hS ho hp).1 f _ hm
    exact hno f c hc
  · cases hc : out.facts.codes (P.env.funcObj f) with
    | none => rfl
    | some C =>
      obtain ⟨c, hc, -⟩ := ((exported_codes h hS ho hp).1 f hf C).1 hc
      exact absurd hc (hno f c)
  · cases hc : out.facts.ctor (P.env.funcObj f) with
    | none => rfl
    | some n =>
      obtain ⟨c, p, hc, -⟩ := ((exported_constructors h hS ho).1 f hf n).1 hc
      exact absurd hc (hno f c)
  · by_cases hl : LookedAt P out.facts g
    · obtain ⟨f, ⟨c, hc⟩ | ha, hr⟩ := hl
      · exact absurd hc (hno f c)
      · refine ⟨f, ha, ?_⟩
        have e : seen P out.facts = P.plan out.facts := by
          funext x
          unfold seen
          rw [if_neg]
          rintro ⟨y, c, hc, -⟩
          exact hno y c hc
        rw [e] at hr; exact hr
    · exact absurd ((bodies_once h hS ho hp g).2 hl) hg

/-! ## Example

In the package with the wrong declaration of `F` (`Props/Corrections.lean`), the method `Get` is given a declaration too, an incomplete
one.  The report about `F` stays as it is. -/

def adopt : FnId → Option GoString := fun f => if f = 4 then some b!"Errors:\n\n  - y-error -- sometimes\n" else wrong.decls.doc f

def adoptOut : Outcome :=
  match runVerify (wrong.documented adopt) schedule' true with
  | .ok out => out
  | .error _ => ⟨pkg.env.facts, [], [], [], [], [], [], []⟩

theorem adopt_ran : runVerify (wrong.documented adopt) schedule' true = .ok adoptOut := rfl

theorem adopt_params : SameParams wrong adopt := by
  intro f p
  by_cases hf : f = 4
  · subst hf
    constructor
    · rintro ⟨c, ⟨-, -, r, h1, -, h3⟩, hp⟩
      have h1 : Except.ok DocResult.empty = .ok r := h1
      cases h1
      rcases h3 with ⟨-, h3, -⟩ | ⟨h3, -⟩
      · rw [h3] at hp; cases hp
      · exact absurd rfl h3
    · rintro ⟨c, ⟨-, -, r, h1, -, h3⟩, hp⟩
      have e : findErrorDocs ((wrong.documented adopt).decls.doc 4) = .ok ⟨[b!"y-error"], [], false⟩ := by decide +kernel
      rw [e] at h1
      cases h1
      rcases h3 with ⟨-, h3, -⟩ | ⟨h3, -⟩
      · rw [h3] at hp; cases hp
      · exact absurd rfl h3
  · have hd : adopt f = wrong.decls.doc f := if_neg hf
    constructor
    · rintro ⟨c, ⟨k1, k2, k3⟩, k4⟩; exact ⟨c, ⟨k1, k2, (declares_unchanged hd).2 k3⟩, k4⟩
    · rintro ⟨c, ⟨k1, k2, k3⟩, k4⟩; exact ⟨c, ⟨k1, k2, (declares_unchanged hd).1 k3⟩, k4⟩

/-- The hypotheses are met. -/
theorem adopt_unaffected : Unaffected wrong adopt wrongOut adoptOut :=
  unaffected wrong_ran adopt_ran schedule_fair schedule'_fair (objects_documented pkg_objects) pkg_program adopt_params

theorem adopt_kept : (0, b!"missing codes: [b-error c-error] unused codes: [z-error]") ∈ adoptOut.mismatches :=
  (comparison_unaffected_partial wrong_ran adopt_ran schedule_fair schedule'_fair (objects_documented pkg_objects) pkg_program adopt_params
    (wrong_settled 0) rfl _).2 (by rw [wrong_reports]; exact List.mem_singleton.2 rfl)

/-- The new declaration is compared with the body, and recorded. -/
theorem adopt_effect : (4, b!"missing codes: [x-error] unused codes: [y-error]") ∈ adoptOut.mismatches ∧
    wrongOut.facts.codes 74 = none ∧ adoptOut.facts.codes 74 = some [b!"y-error"] := by decide +kernel

def bare : Package := pkg.documented fun f => if f = 0 then some b!"F returns errors.\n\nErrors are nice.\n" else none

def bareOut : Outcome :=
  match runVerify bare schedule false with
  | .ok out => out
  | .error _ => ⟨pkg.env.facts, [], [], [], [], [], [], []⟩

theorem bare_ran : runVerify bare schedule false = .ok bareOut := rfl

theorem bare_untouched : bareOut.claims = [] ∧ bareOut.mismatches = [] := by
  have := undeclared_untouched bare_ran schedule_fair (objects_documented pkg_objects) pkg_program fun f hf text ht => by
    have hf : f = 0 ∨ f ≠ 0 := Classical.em _
    rcases hf with rfl | hf
    · cases ht
      unfold DocGrammar.Prose DocGrammar.StartsBlock DocGrammar.SaysNone
      decide +kernel
    · have : (if f = 0 then some b!"F returns errors.\n\nErrors are nice.\n" else none) = some text := ht
      rw [if_neg hf] at this; cases this
  exact ⟨this.1, this.2.1⟩

end Serum.Props.Adoption
