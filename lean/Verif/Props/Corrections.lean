import Verif.Props.RunOrder
import Verif.Props.RunCodes
import Verif.Props.Texts

/-!
# C47 — following the reports fixes them

The reports about declarations say what to do: add the missing codes, remove the unused ones.  Here is what happens when the
programmer does so and runs the analyzer again.
-/

namespace Serum

/-- The package with other doc comments on its functions. -/
def Package.documented (P : Package) (doc : FnId → Option GoString) : Package := { P with decls := { P.decls with doc := doc } }

namespace Props.Run
open Serum RunSpec CodeFormat

variable {P : Package} {S S' : Schedule} {strict strict' : Bool} {out out' : Outcome} {doc : FnId → Option GoString}

/-- The doc comment of `f` has been changed as a report on `f` says: in the report the codes `missing` and `unused` are read, the new
comment is again a valid declaration, the same parameter is named, and the codes declared are those declared before and the missing
ones, without the unused ones. -/
def Corrected (P : Package) (out : Outcome) (doc : FnId → Option GoString) (f : FnId) : Prop :=
  ∃ c c' missing unused, (f, Reports.mismatchText missing unused) ∈ out.mismatches ∧
    (∀ x, x ∈ missing ∨ x ∈ unused → WellFormed x) ∧
    Declares P f c ∧ Declares (P.documented doc) f c' ∧ c'.param = c.param ∧
    ∀ x, x ∈ c'.codes ↔ (x ∈ c.codes ∨ x ∈ missing) ∧ x ∉ unused

theorem declares_unique {f : FnId} {c c' : FuncCodes} (h : Declares P f c) (h' : Declares P f c') : c = c' := by
  obtain ⟨r, h1, h2, h3⟩ := h
  obtain ⟨r', h1', h2', h3'⟩ := h'
  rw [h1] at h1'
  cases h1'
  have : c.param = c'.param := by
    rcases h3 with ⟨a, b, -⟩ | ⟨a, pre, i, post, e, hi, hn, -, b⟩ <;> rcases h3' with ⟨a', b', -⟩ | ⟨a', pre', i', post', e', hi', hn', -, b'⟩
    · rw [b, b']
    · exact absurd a a'
    · exact absurd a' a
    · rw [b, b']
      have key : ∀ (pre pre' post post' : List Ident), pre ++ i :: post = pre' ++ i' :: post' → (∀ j ∈ pre, j.name ≠ r.param) →
          (∀ j ∈ pre', j.name ≠ r.param) → i = i' ∧ pre.length = pre'.length := by
        intro pre
        induction pre with
        | nil =>
          intro pre' post post' e _ hn'
          cases pre' with
          | nil => cases e; exact ⟨rfl, rfl⟩
          | cons j pre' =>
            simp only [List.nil_append, List.cons_append, List.cons.injEq] at e
            exact absurd hi (e.1 ▸ hn' j (by simp))
        | cons j pre ih =>
          intro pre' post post' e hn hn'
          cases pre' with
          | nil =>
            simp only [List.nil_append, List.cons_append, List.cons.injEq] at e
            exact absurd hi' (e.1 ▸ hn j (by simp))
          | cons j' pre' =>
            simp only [List.cons_append, List.cons.injEq] at e
            obtain ⟨k1, k2⟩ := ih pre' post post' e.2 (fun x hx => hn x (by simp [hx])) (fun x hx => hn' x (by simp [hx]))
            exact ⟨k1, by simp [k2]⟩
      obtain ⟨k1, k2⟩ := key pre pre' post post' (e ▸ e') hn hn'
      rw [k1, k2]
  cases c; cases c'; simp only at this h2 h2'; rw [this, h2, h2']

theorem compared_documented {f : FnId} {c : FuncCodes} : Compared (P.documented doc) f c ↔
    Kept P f ∧ ReturnsError P f ∧ Declares (P.documented doc) f c := Iff.rfl

theorem declares_unchanged {f : FnId} (h : doc f = P.decls.doc f) {c : FuncCodes} : Declares (P.documented doc) f c ↔ Declares P f c := by
  unfold RunSpec.Declares Package.documented
  dsimp only
  rw [h]

set_option smartUnfolding false in
theorem plan_documented (facts : Facts) : (P.documented doc).plan facts = P.plan facts := rfl

theorem objects_documented (h : Objects P) : Objects (P.documented doc) :=
  ⟨h.funcs, h.distinct, h.methods, h.apart, h.imported, h.importedMethods, h.interfaces, h.importedInterfaces, h.importedTables⟩

theorem during_documented (facts : Facts) : during (P.documented doc) facts = during P facts := rfl

set_option smartUnfolding false in
theorem tag_documented (facts : Facts) : findAndTagErrorTypes (P.documented doc).start (P.documented doc).decls (P.documented doc).types
    (P.documented doc).depth (P.documented doc).specs facts =
    findAndTagErrorTypes P.start P.decls P.types P.depth P.specs facts := rfl

/-- Bodies are understood in the same way if the same parameters are declared to be error codes. -/
theorem plan_of_params (h : runVerify P S strict = .ok out) (h' : runVerify (P.documented doc) S' strict' = .ok out') (hS : S.Fair)
    (hS' : S'.Fair) (ho : Objects P) (hp : Interfaces.Program P.ifaces)
    (hpar : ∀ f p, (∃ c, Compared P f c ∧ c.param = some p) ↔ ∃ c, Compared (P.documented doc) f c ∧ c.param = some p) :
    (P.documented doc).plan (during (P.documented doc) out'.facts) = P.plan (during P out.facts) := by
  obtain ⟨s, hr⟩ := ran_iff.1 h
  obtain ⟨s', hr'⟩ := ran_iff.1 h'
  have ho' : Objects (P.documented doc) := objects_documented ho
  rw [plan_documented, during_documented]
  refine Package.plan_eq ?_ ?_ ?_
  · funext o
    unfold during
    dsimp only
    split
    · rfl
    · rename_i hf
      have k1 : ∀ f ∈ P.funcs, P.env.funcObj f ≠ o := fun f hf' he => hf ⟨f, hf', he⟩
      obtain ⟨-, a2, a3⟩ := hr.out_codes hS ho hp
      obtain ⟨-, b2, b3⟩ := hr'.out_codes hS' ho' hp
      by_cases hm : ∃ d ∈ P.ifaces, ∃ im, .method im ∈ d.elements ∧ P.methodObj im.ident.id = o
      · obtain ⟨d, hd, im, him, rfl⟩ := hm
        exact Option.ext fun C => (b2 d hd im him C).trans (a2 d hd im him C).symm
      · have k2 : ∀ d ∈ P.ifaces, ∀ im, .method im ∈ d.elements → P.methodObj im.ident.id ≠ o :=
          fun d hd im him he => hm ⟨d, hd, im, him, he⟩
        exact (b3 o k1 k2).trans (a3 o k1 k2).symm
  · obtain ⟨a1, a2⟩ := hr.out_ctor hS ho
    rw [← (hr.out_rest hS ho).1] at a1 a2
    obtain ⟨b1, b2⟩ := hr'.out_ctor hS' ho'
    rw [← (hr'.out_rest hS' ho').1] at b1 b2
    funext o
    show out'.facts.ctor o = out.facts.ctor o
    by_cases hf : ∃ f ∈ P.funcs, P.env.funcObj f = o
    · obtain ⟨f, hf, rfl⟩ := hf
      refine Option.ext fun n => (b1 f hf n).trans (Iff.trans ?_ (a1 f hf n).symm)
      constructor
      · rintro ⟨c, p, h1, h2, h3⟩
        obtain ⟨c', h1', h2'⟩ := (hpar f p).2 ⟨c, h1, h2⟩
        exact ⟨c', p, h1', h2', h3⟩
      · rintro ⟨c, p, h1, h2, h3⟩
        obtain ⟨c', h1', h2'⟩ := (hpar f p).1 ⟨c, h1, h2⟩
        exact ⟨c', p, h1', h2', h3⟩
    · have k1 : ∀ f ∈ P.funcs, P.env.funcObj f ≠ o := fun f hf' he => hf ⟨f, hf', he⟩
      exact (b2 o k1).trans (a2 o k1).symm
  · show out'.facts.errorType = out.facts.errorType
    rw [(hr.out_rest hS ho).2.1, (hr'.out_rest hS' ho').2.1]
    have := (tag_documented (P := P) (doc := doc) P.env.facts).symm.trans hr'.tag
    have := hr.tag.symm.trans this
    simp only [Except.ok.injEq, Prod.mk.injEq] at this
    rw [this.1]

theorem lists_nil {l : List GoString} {p : GoString → Prop} (h : Lists l p) (hn : ∀ x, ¬ p x) : l = [] := by
  cases l with
  | nil => rfl
  | cons x l => exact absurd ((h.2.2 x).1 (by simp)) (hn x)

theorem during_wf {facts : Facts} (h : AllWellFormed facts) : AllWellFormed (during P facts) := by
  refine ⟨fun o C hC => ?_, h.types, h.interfaces⟩
  unfold during at hC
  dsimp only at hC
  split at hC
  · cases hC
  · exact h.codes o C hC

theorem yields_all {N D : Type} {p : GoString → Prop} : ∀ {q : Plan N D} {c : GoString}, Search.CodesAll p q → q.Yields (fun _ c => p c) c → p c
  | .codes s, _, h, hc => h s (by simp [Plan.leaves]) _ hc
  | .report _, _, _, hc => hc.elim
  | .panic _, _, _, hc => hc.elim
  | .call _, _, _, hc => hc
  | .visit _, _, _, hc => hc
  | .union a b, c, h, hc => by
    rcases hc with hc | hc
    · exact yields_all (q := a) (fun s hs => h s (by simp [Plan.leaves, hs])) hc
    · exact yields_all (q := b) (fun s hs => h s (by simp [Plan.leaves, hs])) hc
  | .minus a _, _, h, hc => yields_all (q := a) (fun s hs => h s (by simpa [Plan.leaves] using hs)) hc.1

theorem codesOf_wf {facts : Facts} (hw : AllWellFormed facts) (ha : PrintsAscii P.env.isPrint) {f : FnId} {x : GoString}
    (hx : CodesOf (P.plan facts) f x) : WellFormed x :=
  hx (fun _ c => WellFormed c) ⟨fun f _ hc => yields_all
    (Bodies.plan_wellFormed (P.at_ facts) ha ⟨hw.codes, hw.types⟩ P.depth f) hc, fun _ _ _ _ h => h⟩

/-- **C47.** Some reported functions are given new doc comments as their reports say; all others keep theirs.  When the analyzer runs
again (visiting functions in whatever order), nothing is reported about the corrected declarations, and the reports about all other
declarations are the same as before.

Partial: as in `mismatches_exact_partial`, functions that can reach a literal calling back are excluded. -/
theorem corrections_partial (h : runVerify P S strict = .ok out) (h' : runVerify (P.documented doc) S' strict' = .ok out') (hS : S.Fair)
    (hS' : S'.Fair) (ho : Objects P) (hp : Interfaces.Program P.ifaces) (ha : PrintsAscii P.env.isPrint) (hw : AllWellFormed P.env.facts)
    (hl : ∀ f c, Compared P f c → CallGraph.Settled (P.plan (during P out.facts)) f)
    (hdoc : ∀ f, doc f = P.decls.doc f ∨ Corrected P out doc f) :
    (∀ f, Corrected P out doc f → ∀ text, (f, text) ∉ out'.mismatches) ∧
    ∀ f, doc f = P.decls.doc f → ∀ text, (f, text) ∈ out'.mismatches ↔ (f, text) ∈ out.mismatches := by
  have hout := exported_wellFormed h hS ho hp ha hw
  obtain ⟨hex, hnd⟩ := mismatches_exact_partial h hS ho hp
  have ho' : Objects (P.documented doc) := objects_documented ho
  obtain ⟨hex', hnd'⟩ := mismatches_exact_partial h' hS' ho' hp
  have hpar : ∀ f p, (∃ c, Compared P f c ∧ c.param = some p) ↔ ∃ c, Compared (P.documented doc) f c ∧ c.param = some p := by
    intro f p
    rcases hdoc f with hd | ⟨c, c', missing, unused, -, -, hc, hc', hpp, -⟩
    · constructor
      · rintro ⟨c, ⟨k1, k2, k3⟩, k4⟩; exact ⟨c, ⟨k1, k2, (declares_unchanged hd).2 k3⟩, k4⟩
      · rintro ⟨c, ⟨k1, k2, k3⟩, k4⟩; exact ⟨c, ⟨k1, k2, (declares_unchanged hd).1 k3⟩, k4⟩
    · constructor
      · rintro ⟨d, ⟨k1, k2, k3⟩, k4⟩
        cases declares_unique hc k3
        exact ⟨c', ⟨k1, k2, hc'⟩, hpp.trans k4⟩
      · rintro ⟨d, ⟨k1, k2, k3⟩, k4⟩
        cases declares_unique hc' k3
        exact ⟨c, ⟨k1, k2, hc⟩, hpp.symm.trans k4⟩
  have hplan := plan_of_params h h' hS hS' ho hp hpar
  rw [hplan] at hex'
  constructor
  · rintro f ⟨c, c', missing, unused, hm, hwf, hc, hc', hpp, hcodes⟩ text hm'
    obtain ⟨d, _, _, hcomp, -⟩ := (undeclared_derivable h hS ho hp).1 f _ hm
    cases declares_unique hc hcomp.2.2
    have hset := hl f c hcomp
    obtain ⟨d, mi, un, hd, hmi, hun, -, ht⟩ := (hex f hset _).1 hm
    cases declares_unique hc hd.2.2
    have plain : ∀ x, x ∈ missing ∨ x ∈ unused → Texts.Plain x := fun x hx => Texts.plain_of_wellFormed (hwf x hx)
    have plain' : ∀ x, x ∈ mi ∨ x ∈ un → Texts.Plain x := fun x hx => Texts.plain_of_wellFormed <| by
      rcases hx with hx | hx
      · exact codesOf_wf (during_wf hout) ha ((hmi.2.2 x).1 hx).1
      · exact compared_wf hd x ((hun.2.2 x).1 hx).1
    obtain ⟨rfl, rfl⟩ := Texts.mismatch_readable plain plain' ht
    obtain ⟨d, mi', un', hd', hmi', hun', hne, -⟩ := (hex' f hset text).1 hm'
    cases declares_unique hc' hd'.2.2
    have same : ∀ x, x ∈ c'.codes ↔ CodesOf (P.plan (during P out.facts)) f x := by
      intro x
      rw [hcodes, hmi.2.2, hun.2.2]
      by_cases h1 : x ∈ c.codes <;> by_cases h2 : CodesOf (P.plan (during P out.facts)) f x <;> simp [h1, h2]
    have e1 := lists_nil hmi' fun x hx => hx.2 ((same x).2 hx.1)
    have e2 := lists_nil hun' fun x hx => hx.2 ((same x).1 hx.1)
    rcases hne with hne | hne
    · exact hne e1
    · exact hne e2
  · intro f hd text
    constructor
    · intro hm
      obtain ⟨c, _, _, hcomp, -⟩ := (undeclared_derivable h' hS' ho' hp).1 f _ hm
      have hcomp' : Compared P f c := ⟨hcomp.1, hcomp.2.1, (declares_unchanged hd).1 hcomp.2.2⟩
      have hset := hl f c hcomp'
      obtain ⟨c, mi, un, k1, k2⟩ := (hex' f hset text).1 hm
      exact (hex f hset text).2 ⟨c, mi, un, ⟨k1.1, k1.2.1, (declares_unchanged hd).1 k1.2.2⟩, k2⟩
    · intro hm
      obtain ⟨c, _, _, hcomp, -⟩ := (undeclared_derivable h hS ho hp).1 f _ hm
      have hset := hl f c hcomp
      obtain ⟨c, mi, un, k1, k2⟩ := (hex f hset text).1 hm
      exact (hex' f hset text).2 ⟨c, mi, un, ⟨k1.1, k1.2.1, (declares_unchanged hd).2 k1.2.2⟩, k2⟩

/-- **C47.** If all reported functions are corrected, nothing is reported about declarations any more: reports never come back, and
correcting one declaration never makes another one wrong. -/
theorem all_corrected_partial (h : runVerify P S strict = .ok out) (h' : runVerify (P.documented doc) S' strict' = .ok out') (hS : S.Fair)
    (hS' : S'.Fair) (ho : Objects P) (hp : Interfaces.Program P.ifaces) (ha : PrintsAscii P.env.isPrint) (hw : AllWellFormed P.env.facts)
    (hl : ∀ f c, Compared P f c → CallGraph.Settled (P.plan (during P out.facts)) f)
    (hdoc : ∀ f, doc f = P.decls.doc f ∨ Corrected P out doc f)
    (hall : ∀ f text, (f, text) ∈ out.mismatches → Corrected P out doc f) : out'.mismatches = [] := by
  obtain ⟨h1, h2⟩ := corrections_partial h h' hS hS' ho hp ha hw hl hdoc
  rw [List.eq_nil_iff_forall_not_mem]
  rintro ⟨f, text⟩ hm
  rcases hdoc f with hd | hd
  · exact h1 f (hall f text ((h2 f hd text).1 hm)) text hm
  · exact h1 f hd text hm

/-- A doc comment declaring the codes, and the parameter if one is given. -/
def declaration (codes : List GoString) (p : Option GoString) : GoString :=
  ErrorDocs.writeDoc [] [] (codes.map (fun c => .code c 0 []) ++ (p.toList.map fun q => .param q 0 [])) []

theorem declaration_read (codes : List GoString) (hcodes : ∀ x ∈ codes, WellFormed x) (p : Option GoString) (hp : ∀ q ∈ p, ParamName q) :
    ∃ r, runDocs (declaration codes p) = .ok r ∧ (∀ x, x ∈ r.codes ↔ x ∈ codes) ∧ r.param = p.getD [] ∧ r.none = false := by
  obtain ⟨r, h1, -, h2, h3, h4⟩ := ErrorDocs.write_read [] [] []
    (codes.map (fun c => .code c 0 []) ++ (p.toList.map fun q => .param q 0 [])) (p.getD []) (by simp) (by simp) .nil (by simp)
    (by
      intro it hit
      rcases List.mem_append.1 hit with hit | hit
      · obtain ⟨c, hc, rfl⟩ := List.mem_map.1 hit
        exact ⟨hcodes c hc, by simp⟩
      · obtain ⟨q, hq, rfl⟩ := List.mem_map.1 hit
        exact ⟨hp q (by simpa using hq), by simp⟩)
    (by
      have : ErrorDocs.paramsOf (codes.map (fun c => .code c 0 []) ++ (p.toList.map fun q => .param q 0 [])) = p.toList := by
        have app : ∀ a b, ErrorDocs.paramsOf (a ++ b) = ErrorDocs.paramsOf a ++ ErrorDocs.paramsOf b := fun a b => List.filterMap_append
        have h1 : ErrorDocs.paramsOf (codes.map (fun c => .code c 0 [])) = [] := by
          unfold ErrorDocs.paramsOf
          rw [List.filterMap_eq_nil_iff]
          intro a ha
          obtain ⟨c, -, rfl⟩ := List.mem_map.1 ha
          rfl
        rw [app, h1]
        cases p <;> rfl
      rw [this]
      cases p
      · exact .inl ⟨rfl, rfl⟩
      · exact .inr rfl)
  refine ⟨r, h1, fun x => ?_, h3, h4⟩
  rw [h2]
  constructor
  · rintro ⟨pad, cm, hm⟩
    rcases List.mem_append.1 hm with hm | hm
    · obtain ⟨c, hc, he⟩ := List.mem_map.1 hm
      cases he; exact hc
    · obtain ⟨q, -, he⟩ := List.mem_map.1 hm
      cases he
  · intro hx
    exact ⟨0, [], List.mem_append_left _ (List.mem_map.2 ⟨x, hx, rfl⟩)⟩

/-- A declaration of any codes can be written: every list of well-formed codes, with or without parameter. -/
theorem writable {f : FnId} {c : FuncCodes} (hc : RunSpec.Declares P f c) (codes : List GoString) (hcodes : ∀ x ∈ codes, WellFormed x)
    (hname : ∀ i ∈ paramNames (P.env.func f).type.params, ParamName i.name) :
    ∃ text, ∀ doc : FnId → Option GoString, doc f = some text →
      ∃ c', RunSpec.Declares (P.documented doc) f c' ∧ c'.param = c.param ∧ ∀ x, x ∈ c'.codes ↔ x ∈ codes := by
  obtain ⟨r, hr, -, ⟨h1, h2, h3⟩ | ⟨h1, pre, i, post, h2, h3, h4, h5, h6⟩⟩ := hc
  · by_cases hn : codes = []
    · subst hn
      refine ⟨b!"Errors: none", fun doc hd => ⟨⟨[], none⟩, ⟨⟨[], [], true⟩, ?_, rfl, .inl ⟨rfl, rfl, .inr rfl⟩⟩, h2.symm, fun _ => Iff.rfl⟩⟩
      show findErrorDocs (doc f) = _
      rw [hd]
      decide +kernel
    · obtain ⟨r', e, k1, k2, k3⟩ := declaration_read codes hcodes none (by simp)
      refine ⟨declaration codes none, fun doc hd => ⟨⟨r'.codes, none⟩, ⟨r', ?_, rfl, .inl ⟨k2, rfl, .inl ?_⟩⟩, h2.symm, k1⟩⟩
      · show findErrorDocs (doc f) = _
        rw [hd]; exact e
      · intro h0
        obtain ⟨x, hx⟩ := List.exists_mem_of_ne_nil _ hn
        have := (k1 x).2 hx
        rw [h0] at this; cases this
  · have hpn : ParamName r.param := h3 ▸ hname i (by rw [h2]; simp)
    obtain ⟨r', e, k1, k2, k3⟩ := declaration_read codes hcodes (some r.param) (by simpa using hpn)
    have k2 : r'.param = r.param := k2
    refine ⟨declaration codes (some r.param), fun doc hd => ⟨⟨r'.codes, c.param⟩, ⟨r', ?_, rfl, .inr ⟨by rw [k2]; exact h1, pre, i, post,
      h2, by rw [k2]; exact h3, by rw [k2]; exact h4, h5, h6⟩⟩, rfl, k1⟩⟩
    show findErrorDocs (doc f) = _
    rw [hd]; exact e

/-- **C47.** The reports about declarations can always be followed: the reported functions, and only these, can be given doc comments
with which, whatever the order of the next run, nothing is reported about declarations.  (Parameter names are Go identifiers.) -/
theorem fixable_partial (h : runVerify P S strict = .ok out) (hS : S.Fair) (ho : Objects P) (hp : Interfaces.Program P.ifaces)
    (ha : PrintsAscii P.env.isPrint) (hw : AllWellFormed P.env.facts)
    (hl : ∀ f c, Compared P f c → CallGraph.Settled (P.plan (during P out.facts)) f)
    (hname : ∀ f ∈ P.funcs, ∀ i ∈ paramNames (P.env.func f).type.params, ParamName i.name) :
    ∃ doc, (∀ f, (∀ text, (f, text) ∉ out.mismatches) → doc f = P.decls.doc f) ∧
      (∀ f text, (f, text) ∈ out.mismatches → Corrected P out doc f) ∧
      ∀ S' strict' out', S'.Fair → runVerify (P.documented doc) S' strict' = .ok out' → out'.mismatches = [] := by
  classical
  have hout := exported_wellFormed h hS ho hp ha hw
  obtain ⟨hex, -⟩ := mismatches_exact_partial h hS ho hp
  have each : ∀ f, ∃ t : Option GoString, ((∀ text, (f, text) ∉ out.mismatches) → t = P.decls.doc f) ∧
      ∀ text, (f, text) ∈ out.mismatches → ∀ doc : FnId → Option GoString, doc f = t → Corrected P out doc f := by
    intro f
    by_cases hf : ∃ text, (f, text) ∈ out.mismatches
    · obtain ⟨text, hm⟩ := hf
      obtain ⟨c, _, _, hcomp, -⟩ := (undeclared_derivable h hS ho hp).1 f _ hm
      obtain ⟨d, missing, unused, hd, hmi, hun, -, rfl⟩ := (hex f (hl f c hcomp) text).1 hm
      cases declares_unique hcomp.2.2 hd.2.2
      have hfm : f ∈ P.funcs := Prepared.kept_sub hcomp.1
      have hmw : ∀ x ∈ missing, WellFormed x := fun x hx => codesOf_wf (during_wf hout) ha ((hmi.2.2 x).1 hx).1
      have huw : ∀ x ∈ unused, WellFormed x := fun x hx => compared_wf hd x ((hun.2.2 x).1 hx).1
      obtain ⟨t, ht⟩ := writable hcomp.2.2 ((c.codes ++ missing).filter (· ∉ unused))
        (fun x hx => by
          rcases List.mem_append.1 (List.mem_filter.1 hx).1 with hx | hx
          · exact compared_wf hd x hx
          · exact hmw x hx) (hname f hfm)
      refine ⟨some t, fun hno => absurd hm (hno _), fun _ _ doc hdoc => ?_⟩
      obtain ⟨c', k1, k2, k3⟩ := ht doc hdoc
      exact ⟨c, c', missing, unused, hm, fun x hx => hx.elim (hmw x) (huw x), hcomp.2.2, k1, k2, fun x => by
        rw [k3, List.mem_filter, List.mem_append]; simp⟩
    · exact ⟨P.decls.doc f, fun _ => rfl, fun text hm => absurd ⟨text, hm⟩ hf⟩
  have hdoc := fun f => (each f).choose_spec
  refine ⟨fun f => (each f).choose, fun f hno => (hdoc f).1 hno, fun f text hm => (hdoc f).2 text hm _ rfl, ?_⟩
  intro S' strict' out' hS' h'
  refine all_corrected_partial h h' hS hS' ho hp ha hw hl (fun f => ?_) fun f text hm => (hdoc f).2 text hm _ rfl
  by_cases hf : ∃ text, (f, text) ∈ out.mismatches
  · obtain ⟨text, hm⟩ := hf
    exact .inr ((hdoc f).2 text hm _ rfl)
  · exact .inl ((hdoc f).1 fun text hm => hf ⟨text, hm⟩)

/-! ## Example: the package of `Props/RunExample.lean` with a wrong declaration -/

/-- `F` forgets two codes and declares one that never occurs. -/
def wrong : Package := pkg.documented fun f =>
  if f = 0 then some b!"Errors:\n\n  - a-error -- sometimes\n  - z-error -- never\n" else pkg.decls.doc f

def wrongOut : Outcome :=
  match runVerify wrong schedule false with
  | .ok out => out
  | .error _ => ⟨pkg.env.facts, [], [], [], [], [], [], []⟩

theorem wrong_ran : runVerify wrong schedule false = .ok wrongOut := rfl

/-- The report of the first run. -/
theorem wrong_reports : wrongOut.mismatches = [(0, b!"missing codes: [b-error c-error] unused codes: [z-error]")] := by decide +kernel

theorem wrong_settled (f : FnId) : CallGraph.Settled (wrong.plan (during wrong wrongOut.facts)) f := by
  refine CallGraph.NoLiteralCycle.settled (fun f g hg => ?_) f
  have : (wrong.plan (during wrong wrongOut.facts) f).visits = [] := by
    match f with
    | 0 | 1 | 2 | 3 | 4 => rfl
    | f + 5 => simp [Package.plan, Package.at_, Package.start, Analyse.plan, Analyse.bodyPlan, Env.func, wrong, Package.documented, pkg, pkgEnv, Plan.visits]
  rw [this] at hg; cases hg

theorem wellFormed_of {x : GoString} (h : isErrorCodeValid x = true) : WellFormed x := (isErrorCodeValid_iff_wellFormed x).1 h

/-- The original declaration is what the report asks for. -/
theorem wrong_corrected : Corrected wrong wrongOut pkg.decls.doc 0 := by
  refine ⟨⟨[b!"a-error", b!"z-error"], none⟩, ⟨[b!"a-error", b!"b-error", b!"c-error"], none⟩, [b!"b-error", b!"c-error"], [b!"z-error"],
    ?_, ?_, ⟨⟨[b!"a-error", b!"z-error"], [], false⟩, by decide +kernel, rfl, .inl ⟨rfl, rfl, .inl nofun⟩⟩,
    ⟨⟨[b!"a-error", b!"b-error", b!"c-error"], [], false⟩, by decide +kernel, rfl, .inl ⟨rfl, rfl, .inl nofun⟩⟩, rfl, ?_⟩
  · rw [wrong_reports]; exact List.mem_singleton.2 rfl
  · intro x hx
    have hx : x ∈ [b!"b-error", b!"c-error", b!"z-error"] := by simpa [or_assoc] using hx
    have all : ∀ x ∈ [b!"b-error", b!"c-error", b!"z-error"], isErrorCodeValid x = true := by decide
    exact wellFormed_of (all x hx)
  · intro x
    simp only [List.mem_cons, List.not_mem_nil, or_false]
    constructor
    · rintro (rfl | rfl | rfl) <;> decide
    · rintro ⟨(rfl | rfl) | rfl | rfl, h⟩
      · exact .inl rfl
      · exact absurd rfl h
      · exact .inr (.inl rfl)
      · exact .inr (.inr rfl)

/-- The hypotheses are met: with the corrected comment, `wrong` is `pkg`, and nothing is reported about declarations in any order. -/
theorem wrong_fixed (S' : Schedule) (hS' : S'.Fair) (out' : Outcome) (h' : runVerify pkg S' true = .ok out') : out'.mismatches = [] := by
  refine all_corrected_partial (P := wrong) (doc := pkg.decls.doc) wrong_ran h' schedule_fair hS' (objects_documented pkg_objects) pkg_program
    (fun c hc => rfl) ⟨nofun, nofun, nofun⟩ (fun f _ _ => wrong_settled f) (fun f => ?_) fun f text hm => ?_
  · by_cases hf : f = 0
    · subst hf; exact .inr wrong_corrected
    · refine .inl ?_
      show _ = if f = 0 then _ else _
      rw [if_neg hf]
  · rw [wrong_reports] at hm
    cases List.mem_singleton.1 hm
    exact wrong_corrected

end Props.Run
end Serum
