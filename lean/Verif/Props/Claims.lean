import Verif.ClaimsLemmas

/-!
# C26 (positions), C35, C36, C38 — functions and their declarations
-/

namespace Serum.Props.Claims
open Serum

/-! ## C36 — misplaced error results are reported exactly -/

/-- **C36.** A function (or interface method) is analysed iff its last result implements `error`; otherwise
exactly the results that implement `error` are reported, one report per result field. -/
theorem misplaced_exact (env : Env) (type : FuncType) (analysed : Bool) (ds : List ClaimDiag)
    (h : checkFunctionReturnsError env type = .ok (analysed, ds)) :
    (analysed = true ↔ ∃ init last, type.results = some (init ++ [last]) ∧ env.implError (env.typeOf last.typ) = true) ∧
    (∀ x, x ∈ ds ↔ analysed = false ∧ ∃ results r, type.results = some results ∧ r ∈ results ∧
      env.implError (env.typeOf r.typ) = true ∧ x = ⟨r.typ, .errorNotLast⟩) ∧
    (analysed = false → ∀ results, type.results = some results →
      ds.length = results.countP (fun r => env.implError (env.typeOf r.typ))) := by
  unfold checkFunctionReturnsError at h
  split at h
  · rename_i hr
    simp only [Except.ok.injEq, Prod.mk.injEq] at h
    obtain ⟨rfl, rfl⟩ := h
    simp [hr]
  · rename_i results hr
    split at h
    · simp at h
    · rename_i last hlast
      obtain ⟨init, rfl⟩ := List.getLast?_eq_some_iff.1 hlast
      split at h
      · rename_i hi
        simp only [Except.ok.injEq, Prod.mk.injEq] at h
        obtain ⟨rfl, rfl⟩ := h
        simp only [true_iff, List.not_mem_nil, Bool.true_eq_false, false_and, implies_true, and_true, false_implies]
        exact ⟨init, last, hr, hi⟩
      · rename_i hi
        simp only [Except.ok.injEq, Prod.mk.injEq] at h
        obtain ⟨rfl, rfl⟩ := h
        refine ⟨?_, ?_, ?_⟩
        · simp only [Bool.false_eq_true, false_iff]
          rintro ⟨init', last', he, hx⟩
          rw [hr] at he
          simp only [Option.some.injEq] at he
          have := List.append_inj' he (by simp)
          simp only [List.cons.injEq, and_true] at this
          rw [this.2] at hi; exact hi hx
        · intro x
          simp only [misplacedErrors, List.mem_filterMap, true_and]
          constructor
          · rintro ⟨r, hm, he⟩
            split at he
            · rename_i hx; simp only [Option.some.injEq] at he; exact ⟨_, r, hr, hm, hx, he.symm⟩
            · simp at he
          · rintro ⟨results, r, h1, hm, hx, rfl⟩
            rw [hr] at h1; simp only [Option.some.injEq] at h1; subst h1
            exact ⟨r, hm, by simp [hx]⟩
        · intro _ results h1
          rw [hr] at h1; simp only [Option.some.injEq] at h1; subst h1
          rw [misplacedErrors]
          generalize init ++ [last] = l
          induction l with
          | nil => simp
          | cons r l ih =>
            by_cases hx : env.implError (env.typeOf r.typ) = true <;> simp [hx, ih]

/-- **C36.** The functions to be analysed are exactly those whose last result implements `error`. -/
theorem analysed_exact (env : Env) (fs analysed : List FnId) (ds : List ClaimDiag)
    (h : findErrorReturningFunctions env fs = .ok (analysed, ds)) (f : FnId) :
    f ∈ analysed ↔ f ∈ fs ∧ ∃ init last, (env.func f).type.results = some (init ++ [last]) ∧
      env.implError (env.typeOf last.typ) = true := by
  induction fs generalizing analysed ds with
  | nil => simp only [findErrorReturningFunctions, Except.ok.injEq, Prod.mk.injEq] at h; simp [← h.1]
  | cons g fs ih =>
    simp only [findErrorReturningFunctions, bind, Except.bind] at h
    split at h
    · simp at h
    · rename_i v hv
      split at h
      · simp at h
      · rename_i w hw
        simp only [pure, Except.pure, Except.ok.injEq, Prod.mk.injEq] at h
        have hi := ih _ _ hw
        have hg := (misplaced_exact env _ _ _ hv).1
        rw [← h.1]
        by_cases hb : v.1 = true
        · rw [if_pos hb, List.mem_cons, hi, List.mem_cons]
          constructor
          · rintro (rfl | ⟨h1, h2⟩)
            · exact ⟨.inl rfl, hg.1 hb⟩
            · exact ⟨.inr h1, h2⟩
          · rintro ⟨rfl | h1, h2⟩
            · exact .inl rfl
            · exact .inr ⟨h1, h2⟩
        · rw [if_neg hb, hi, List.mem_cons]
          constructor
          · rintro ⟨h1, h2⟩; exact ⟨.inr h1, h2⟩
          · rintro ⟨rfl | h1, h2⟩
            · exact absurd (hg.2 h2) hb
            · exact ⟨h1, h2⟩

/-- The check panics exactly on an empty, non-nil result list (`func f() () { … }`), which Go accepts.
(Part of C22.) -/
theorem empty_results_panic (env : Env) (type : FuncType) :
    (∃ e, checkFunctionReturnsError env type = .error e) ↔ type.results = some [] := by
  unfold checkFunctionReturnsError
  constructor
  · rintro ⟨e, h⟩
    split at h
    · simp at h
    · rename_i results hr
      split at h
      · rename_i hl; simp only [List.getLast?_eq_none_iff] at hl; rw [hr, hl]
      · split at h <;> simp at h
  · intro h; rw [h]; exact ⟨_, rfl⟩

/-! ## C35 — checking is opt-in, `-strict` only adds reports -/

/-- A function has no (well-formed or malformed) declaration of codes: its doc comment is accepted and
lists neither codes nor a parameter, nor says `none`. -/
def Undeclared (d : Decls) (f : FnId) : Prop :=
  ∃ r, findErrorDocs (d.doc f) = .ok r ∧ r.codes = [] ∧ r.param = [] ∧ r.none = false

/-- The reports that `-strict` is about. -/
def isStrictReport (x : ClaimDiag) : Bool := x.msg matches .exportedUndeclared _

/-- The functions `-strict` complains about. -/
def StrictTarget (env : Env) (d : Decls) (f : FnId) : Prop :=
  Undeclared d f ∧ d.exported f = true ∧ isCauseMethod env d f = false

theorem claimOf_strict (env : Env) (d : Decls) (f : FnId) :
    (claimOf env d true f).1 = (claimOf env d false f).1 ∧
    ((claimOf env d true f).2.filter fun x => !isStrictReport x) = (claimOf env d false f).2 ∧
    (claimOf env d true f).2.filter isStrictReport =
      (claimOf env d true f).2.filter (fun x => x = ⟨d.pos f, .exportedUndeclared (d.name f)⟩) ∧
    (StrictTarget env d f ∧ (claimOf env d true f).2.filter isStrictReport = [⟨d.pos f, .exportedUndeclared (d.name f)⟩] ∨
      ¬ StrictTarget env d f ∧ (claimOf env d true f).2.filter isStrictReport = []) := by
  unfold claimOf
  split
  · rename_i e he
    refine ⟨rfl, by simp [isStrictReport], by simp [isStrictReport], .inr ⟨?_, by simp [isStrictReport]⟩⟩
    rintro ⟨⟨r, hr, -⟩, -⟩; rw [he] at hr; simp at hr
  · rename_i r hr
    by_cases hp : r.param = []
    · have hfind : findErrorCodeParamIdent env (env.func f).type (d.pos f) r.param = (some none, []) := by
        simp [findErrorCodeParamIdent, hp]
      simp only [hfind]
      split
      · rename_i h
        have hu : Undeclared d f := ⟨r, hr, List.length_eq_zero_iff.1 h.1, hp, h.2.1⟩
        by_cases hc : isCauseMethod env d f = true
        · simp only [hc, if_true]
          refine ⟨trivial, by simp, by simp, .inr ⟨?_, by simp⟩⟩
          rintro ⟨-, -, h⟩; rw [hc] at h; simp at h
        · simp only [hc, if_false, Bool.true_and, Bool.false_and, Bool.false_eq_true, List.append_nil, List.nil_append]
          by_cases he : d.exported f = true
          · simp only [he, if_true]
            exact ⟨trivial, by simp [isStrictReport], by simp [isStrictReport],
              .inl ⟨⟨hu, he, by simpa using hc⟩, by simp [isStrictReport]⟩⟩
          · simp only [he]
            exact ⟨trivial, by simp, by simp, .inr ⟨fun h => he h.2.1, by simp⟩⟩
      · rename_i h
        refine ⟨rfl, by simp, by simp, .inr ⟨?_, by simp⟩⟩
        rintro ⟨⟨r', hr', h1, h2, h3⟩, -⟩
        rw [hr] at hr'; simp only [Except.ok.injEq] at hr'; subst hr'
        exact h ⟨by simp [h1], h3, trivial⟩
    · have hno : ¬ StrictTarget env d f := by
        rintro ⟨⟨r', hr', h1, h2, h3⟩, -⟩
        rw [hr] at hr'; simp only [Except.ok.injEq] at hr'; subst hr'
        exact hp h2
      have : ∀ x ∈ (findErrorCodeParamIdent env (env.func f).type (d.pos f) r.param).2, isStrictReport x = false := by
        intro x hx
        simp only [findErrorCodeParamIdent, hp, if_false] at hx
        split at hx
        · simp at hx; subst hx; rfl
        · split at hx
          · simp at hx
          · simp at hx; subst hx; rfl
      have hf1 : (findErrorCodeParamIdent env (env.func f).type (d.pos f) r.param).2.filter (fun x => !isStrictReport x) =
          (findErrorCodeParamIdent env (env.func f).type (d.pos f) r.param).2 := by
        rw [List.filter_eq_self]; intro x hx; simp [this x hx]
      have hf2 : (findErrorCodeParamIdent env (env.func f).type (d.pos f) r.param).2.filter isStrictReport = [] := by
        rw [List.filter_eq_nil_iff]; intro x hx; simp [this x hx]
      have hf3 : (findErrorCodeParamIdent env (env.func f).type (d.pos f) r.param).2.filter
          (fun x => x = ⟨d.pos f, .exportedUndeclared (d.name f)⟩) = [] := by
        rw [List.filter_eq_nil_iff]; intro x hx h
        have h' : x = ⟨d.pos f, .exportedUndeclared (d.name f)⟩ := by simpa using h
        subst h'
        have := this _ hx
        simp [isStrictReport] at this
      have hpn : ∀ param ds, findErrorCodeParamIdent env (env.func f).type (d.pos f) r.param = (some param, ds) → param ≠ none := by
        intro param ds he
        simp only [findErrorCodeParamIdent, hp, if_false] at he
        split at he
        · simp at he
        · split at he
          · simp only [Prod.mk.injEq, Option.some.injEq] at he; rw [← he.1]; simp
          · simp at he
      revert hf1 hf2 hf3 hpn
      generalize findErrorCodeParamIdent env (env.func f).type (d.pos f) r.param = y
      obtain ⟨a, ds⟩ := y
      intro hf1 hf2 hf3 hpn
      cases a with
      | none => exact ⟨rfl, hf1, by simp only at hf2 hf3 ⊢; rw [hf2, hf3], .inr ⟨hno, hf2⟩⟩
      | some param =>
        have hq : ¬ (r.codes.length = 0 ∧ r.none = false ∧ param = none) := fun h => hpn param ds rfl h.2.2
        simp only [hq, if_false]
        simp only at hf1 hf2 hf3
        refine ⟨trivial, hf1, by rw [hf2, hf3], .inr ⟨hno, hf2⟩⟩

/-- **C35.** The `-strict` flag does not change what functions claim, it adds exactly the reports
"is exported, but does not declare any error codes" for the exported error-returning functions without
declaration that are not `Cause` methods of error types — one per such function — and no other
diagnostic changes. -/
theorem strict_only_adds (env : Env) (d : Decls) (fs : List FnId) :
    (findClaimedErrorCodes env d true fs).1 = (findClaimedErrorCodes env d false fs).1 ∧
    (findClaimedErrorCodes env d true fs).2.filter (fun x => !isStrictReport x) = (findClaimedErrorCodes env d false fs).2 ∧
    ∃ targets : List FnId, targets.Sublist fs ∧ (∀ f, f ∈ targets ↔ f ∈ fs ∧ StrictTarget env d f) ∧
      (findClaimedErrorCodes env d true fs).2.filter isStrictReport =
        targets.map fun f => ⟨d.pos f, .exportedUndeclared (d.name f)⟩ := by
  induction fs with
  | nil => exact ⟨rfl, rfl, [], by simp, by simp, rfl⟩
  | cons f fs ih =>
    obtain ⟨i1, i2, ts, i3, i4, i5⟩ := ih
    obtain ⟨c1, c2, c3, c4⟩ := claimOf_strict env d f
    refine ⟨?_, ?_, ?_⟩
    · simp only [findClaimedErrorCodes, c1, i1]
    · simp only [findClaimedErrorCodes, List.filter_append, c2, i2]
    · rcases c4 with ⟨ht, hr⟩ | ⟨ht, hr⟩
      · refine ⟨f :: ts, i3.cons_cons f, ?_, ?_⟩
        · intro g
          rw [List.mem_cons, i4, List.mem_cons]
          constructor
          · rintro (rfl | ⟨h1, h2⟩)
            · exact ⟨.inl rfl, ht⟩
            · exact ⟨.inr h1, h2⟩
          · rintro ⟨rfl | h1, h2⟩
            · exact .inl rfl
            · exact .inr ⟨h1, h2⟩
        · simp only [findClaimedErrorCodes, List.filter_append, hr, i5, List.map_cons, List.cons_append, List.nil_append]
      · refine ⟨ts, i3.cons f, ?_, ?_⟩
        · intro g
          rw [i4, List.mem_cons]
          constructor
          · rintro ⟨h1, h2⟩; exact ⟨.inr h1, h2⟩
          · rintro ⟨rfl | h1, h2⟩
            · exact absurd h2 ht
            · exact ⟨h1, h2⟩
        · simp only [findClaimedErrorCodes, List.filter_append, hr, i5, List.nil_append]

/-- Without the flag there is no such report. -/
theorem not_strict_no_report (env : Env) (d : Decls) (fs : List FnId) :
    ∀ x ∈ (findClaimedErrorCodes env d false fs).2, isStrictReport x = false := by
  rw [← (strict_only_adds env d fs).2.1]
  intro x hx
  simpa using (List.mem_filter.1 hx).2

/-- **C35.** A function takes part in the comparison of declared and found codes iff it has a valid
declaration: its doc comment is accepted and lists codes, says `none`, or names one of its string
parameters. -/
theorem claims_exact (env : Env) (d : Decls) (strict : Bool) (fs : List FnId) (f : FnId) (c : FuncCodes) :
    (f, c) ∈ (findClaimedErrorCodes env d strict fs).1 ↔ f ∈ fs ∧ ∃ r, findErrorDocs (d.doc f) = .ok r ∧ c.codes = r.codes ∧
      ((r.param = [] ∧ c.param = none ∧ (r.codes ≠ [] ∨ r.none = true)) ∨
       (r.param ≠ [] ∧ ∃ pre i post, paramNames (env.func f).type.params = pre ++ i :: post ∧ i.name = r.param ∧
          (∀ j ∈ pre, j.name ≠ r.param) ∧ env.typeOf i.id = .string ∧ c.param = some ⟨i, pre.length⟩)) := by
  have one : (claimOf env d strict f).1 = some c ↔ ∃ r, findErrorDocs (d.doc f) = .ok r ∧ c.codes = r.codes ∧
      ((r.param = [] ∧ c.param = none ∧ (r.codes ≠ [] ∨ r.none = true)) ∨
       (r.param ≠ [] ∧ ∃ pre i post, paramNames (env.func f).type.params = pre ++ i :: post ∧ i.name = r.param ∧
          (∀ j ∈ pre, j.name ≠ r.param) ∧ env.typeOf i.id = .string ∧ c.param = some ⟨i, pre.length⟩)) := by
    unfold claimOf
    split
    · rename_i e he
      simp only [reduceCtorEq, false_iff]
      rintro ⟨r, hr, -⟩; rw [he] at hr; simp at hr
    · rename_i r hr
      have hex : ∀ P : DocResult → Prop, (∃ r', findErrorDocs (d.doc f) = .ok r' ∧ P r') ↔ P r := by
        intro P
        constructor
        · rintro ⟨r', h1, h2⟩; rw [hr] at h1; simp only [Except.ok.injEq] at h1; exact h1 ▸ h2
        · intro h; exact ⟨r, hr, h⟩
      rw [hex]
      by_cases hp : r.param = []
      · simp only [findErrorCodeParamIdent, hp, if_true, true_and, not_true_eq_false, false_and, or_false, ne_eq]
        by_cases hcond : r.codes.length = 0 ∧ r.none = false ∧ True
        · simp only [hcond, and_self, if_true]
          have h1 : r.codes = [] := List.length_eq_zero_iff.1 hcond.1
          have : (if isCauseMethod env d f = true then ((none, []) : Option FuncCodes × List ClaimDiag)
              else (none, [] ++ if (strict && d.exported f) = true then [⟨d.pos f, .exportedUndeclared (d.name f)⟩] else [])).1 = none := by
            split <;> rfl
          rw [this]
          simp [h1]
        · simp only [hcond, if_false, Option.some.injEq]
          constructor
          · rintro rfl
            refine ⟨rfl, rfl, ?_⟩
            rcases hb : r.none with _ | _
            · left; intro h1; exact hcond ⟨by simp [h1], hb, trivial⟩
            · right; rfl
          · rintro ⟨h1, h2, -⟩
            cases c; simp only at h1 h2; rw [h1, h2]
      · simp only [findErrorCodeParamIdent, hp, if_false, false_and, not_false_eq_true, true_and, false_or, ne_eq]
        split
        · rename_i hx
          split at hx
          · rename_i hnone
            simp only [reduceCtorEq, false_iff]
            rintro ⟨-, pre, i, post, h1, h2, -⟩
            exact findParamIn_none.1 hnone i (by rw [h1]; simp) h2
          · rename_i p hp'
            split at hx
            · simp at hx
            · rename_i hs
              simp only [reduceCtorEq, false_iff]
              rintro ⟨-, pre, i, post, h1, h2, h3, h4, -⟩
              obtain ⟨pre', post', g1, g2, g3, g4⟩ := findParamIn_some hp'
              rw [g1] at h1
              have : p.ident = i := by
                rcases List.append_eq_append_iff.1 h1 with ⟨a, ha, hb⟩ | ⟨a, ha, hb⟩
                · cases a with
                  | nil => simp only [List.nil_append, List.cons.injEq] at hb; exact hb.1
                  | cons x a =>
                    simp only [List.cons_append, List.cons.injEq] at hb
                    exact absurd g3 (h3 p.ident (by rw [ha, hb.1]; simp))
                · cases a with
                  | nil => simp only [List.nil_append, List.cons.injEq] at hb; exact hb.1.symm
                  | cons x a =>
                    simp only [List.cons_append, List.cons.injEq] at hb
                    exact absurd h2 (g4 i (by rw [ha, hb.1]; simp))
              rw [this] at hs; exact hs h4
        · rename_i param ds hx
          split at hx
          · simp at hx
          · rename_i p hp'
            split at hx
            · rename_i hs
              simp only [Prod.mk.injEq, Option.some.injEq] at hx
              obtain ⟨rfl, rfl⟩ := hx
              obtain ⟨pre, post, g1, g2, g3, g4⟩ := findParamIn_some hp'
              simp only [reduceCtorEq, and_false, if_false, Option.some.injEq]
              constructor
              · rintro rfl
                exact ⟨rfl, pre, p.ident, post, g1, g3, g4, hs, by cases p; simp only at g2; simp [g2]⟩
              · rintro ⟨h0, pre', i, post', h1, h2, h3, h4, h5⟩
                have hpi : p = ⟨i, pre'.length⟩ := by
                  rw [g1] at h1
                  rcases List.append_eq_append_iff.1 h1 with ⟨a, ha, hb⟩ | ⟨a, ha, hb⟩
                  · cases a with
                    | nil => simp only [List.nil_append, List.cons.injEq] at hb; cases p; simp_all
                    | cons x a =>
                      simp only [List.cons_append, List.cons.injEq] at hb
                      exact absurd g3 (h3 p.ident (by rw [ha, hb.1]; simp))
                  · cases a with
                    | nil => simp only [List.nil_append, List.cons.injEq] at hb; cases p; simp_all
                    | cons x a =>
                      simp only [List.cons_append, List.cons.injEq] at hb
                      exact absurd h2 (g4 i (by rw [ha, hb.1]; simp))
                cases c; simp only at h0 h5; rw [h0, h5, hpi]
            · simp at hx
  induction fs with
  | nil => simp [findClaimedErrorCodes]
  | cons g fs ih =>
    have h2 : (f, c) ∈ (findClaimedErrorCodes env d strict (g :: fs)).1 ↔
        (g = f ∧ (claimOf env d strict f).1 = some c) ∨ (f, c) ∈ (findClaimedErrorCodes env d strict fs).1 := by
      simp only [findClaimedErrorCodes]
      split
      · rename_i c' hc'
        rw [List.mem_cons, Prod.mk.injEq]
        refine or_congr ⟨?_, ?_⟩ Iff.rfl
        · rintro ⟨rfl, rfl⟩; exact ⟨rfl, hc'⟩
        · rintro ⟨rfl, h⟩; rw [hc'] at h; simp only [Option.some.injEq] at h; exact ⟨rfl, h.symm⟩
      · rename_i hc'
        constructor
        · exact .inr
        · rintro (⟨rfl, h⟩ | h)
          · rw [hc'] at h; simp at h
          · exact h
    refine h2.trans ?_
    rw [List.mem_cons]
    constructor
    · rintro (⟨rfl, h⟩ | h)
      · exact ⟨.inl rfl, one.1 h⟩
      · exact ⟨.inr (ih.1 h).1, (ih.1 h).2⟩
    · rintro ⟨rfl | h1, h⟩
      · exact .inl ⟨rfl, one.2 h⟩
      · exact .inr (ih.2 ⟨h1, h⟩)

/-! ## C38 — exported facts are the declared codes -/

theorem exportCodes_spec (env : Env) (claims : List (FnId × FuncCodes)) (facts : Facts)
    (inj : claims.Pairwise fun a b => env.funcObj a.1 ≠ env.funcObj b.1) :
    (∀ f c, (f, c) ∈ claims → (exportErrorCodeFacts env claims facts).codes (env.funcObj f) = some c.codes) ∧
    (∀ o, (∀ x ∈ claims, env.funcObj x.1 ≠ o) → (exportErrorCodeFacts env claims facts).codes o = facts.codes o) ∧
    (exportErrorCodeFacts env claims facts).ctor = facts.ctor ∧
    (exportErrorCodeFacts env claims facts).errorType = facts.errorType ∧
    (exportErrorCodeFacts env claims facts).interface = facts.interface := by
  induction claims generalizing facts with
  | nil => simp [exportErrorCodeFacts]
  | cons x claims ih =>
    obtain ⟨g, c⟩ := x
    rw [List.pairwise_cons] at inj
    obtain ⟨i1, i2, i3, i4, i5⟩ := ih { facts with codes := fun o => if o = env.funcObj g then some c.codes else facts.codes o } inj.2
    have hun : exportErrorCodeFacts env ((g, c) :: claims) facts =
      exportErrorCodeFacts env claims { facts with codes := fun o => if o = env.funcObj g then some c.codes else facts.codes o } := rfl
    rw [hun]
    refine ⟨?_, ?_, i3, i4, i5⟩
    · intro f c' h
      rcases List.mem_cons.1 h with h | h
      · simp only [Prod.mk.injEq] at h; obtain ⟨rfl, rfl⟩ := h
        rw [i2 _ (fun x hx => (inj.1 x hx).symm)]; simp
      · exact i1 f c' h
    · intro o ho
      rw [i2 o (fun x hx => ho x (List.mem_cons_of_mem _ hx))]
      simp [Ne.symm (ho (g, c) (by simp))]

/-- **C38.** After a run, the codes other packages see for a function are exactly the declared ones (not
the found ones): a function with a valid declaration has exactly the codes of its doc comment, for every
other object nothing changes; the order in which the map of claims is iterated does not matter. -/
theorem exported_codes_are_declared (env : Env) (d : Decls) (strict : Bool) (fs : List FnId) (facts : Facts)
    (claims : List (FnId × FuncCodes)) (order : claims.Perm (findClaimedErrorCodes env d strict fs).1)
    (distinct : ∀ f ∈ fs, ∀ g ∈ fs, env.funcObj f = env.funcObj g → f = g) (nodup : fs.Nodup) :
    (∀ f c, (f, c) ∈ claims → ∃ r, findErrorDocs (d.doc f) = .ok r ∧
      (exportErrorCodeFacts env claims facts).codes (env.funcObj f) = some r.codes) ∧
    (∀ o, (∀ f c, (f, c) ∈ claims → env.funcObj f ≠ o) →
      (exportErrorCodeFacts env claims facts).codes o = facts.codes o) := by
  have inj : claims.Pairwise fun a b => env.funcObj a.1 ≠ env.funcObj b.1 := by
    refine order.symm.pairwise ?_ (fun h => h.symm)
    have : ∀ l : List FnId, (∀ f ∈ l, f ∈ fs) → l.Nodup →
        (findClaimedErrorCodes env d strict l).1.Pairwise fun a b => env.funcObj a.1 ≠ env.funcObj b.1 := by
      intro l
      induction l with
      | nil => intro _ _; simp [findClaimedErrorCodes]
      | cons f l ih =>
        intro hs hn
        rw [List.nodup_cons] at hn
        have ih := ih (fun g hg => hs g (List.mem_cons_of_mem _ hg)) hn.2
        simp only [findClaimedErrorCodes]
        split
        · rw [List.pairwise_cons]
          refine ⟨?_, ih⟩
          rintro ⟨g, c⟩ hg he
          have hg' := ((claims_exact env d strict l g c).1 hg).1
          exact hn.1 (distinct f (hs f (by simp)) g (hs g (List.mem_cons_of_mem _ hg')) he ▸ hg')
        · exact ih
    exact this fs (fun _ h => h) nodup
  obtain ⟨h1, h2, -⟩ := exportCodes_spec env claims facts inj
  refine ⟨?_, ?_⟩
  · intro f c h
    obtain ⟨-, r, hr, hc, -⟩ := (claims_exact env d strict fs f c).1 (order.mem_iff.1 h)
    exact ⟨r, hr, by rw [h1 f c h, hc]⟩
  · intro o ho
    exact h2 o (fun x hx => ho x.1 x.2 hx)

theorem exportCtor_spec (env : Env) (claims : List (FnId × FuncCodes)) (facts : Facts)
    (inj : claims.Pairwise fun a b => env.funcObj a.1 ≠ env.funcObj b.1) :
    (∀ f c, (f, c) ∈ claims → (exportErrorConstructorFacts env claims facts).ctor (env.funcObj f) =
      match c.param with | some p => some p.position | none => facts.ctor (env.funcObj f)) ∧
    (∀ o, (∀ x ∈ claims, env.funcObj x.1 ≠ o) → (exportErrorConstructorFacts env claims facts).ctor o = facts.ctor o) ∧
    (exportErrorConstructorFacts env claims facts).codes = facts.codes := by
  induction claims generalizing facts with
  | nil => simp [exportErrorConstructorFacts]
  | cons x claims ih =>
    obtain ⟨g, c⟩ := x
    rw [List.pairwise_cons] at inj
    cases hc : c.param with
    | none =>
      have hun : exportErrorConstructorFacts env ((g, c) :: claims) facts = exportErrorConstructorFacts env claims facts := by
        simp [exportErrorConstructorFacts, hc]
      obtain ⟨i1, i2, i3⟩ := ih facts inj.2
      rw [hun]
      refine ⟨?_, ?_, i3⟩
      · intro f c' h
        rcases List.mem_cons.1 h with h | h
        · simp only [Prod.mk.injEq] at h; obtain ⟨rfl, rfl⟩ := h
          rw [i2 _ (fun x hx => (inj.1 x hx).symm), hc]
        · exact i1 f c' h
      · intro o ho; exact i2 o (fun x hx => ho x (List.mem_cons_of_mem _ hx))
    | some p =>
      have hun : exportErrorConstructorFacts env ((g, c) :: claims) facts = exportErrorConstructorFacts env claims
          { facts with ctor := fun o => if o = env.funcObj g then some p.position else facts.ctor o } := by
        simp [exportErrorConstructorFacts, hc]
      obtain ⟨i1, i2, i3⟩ := ih { facts with ctor := fun o => if o = env.funcObj g then some p.position else facts.ctor o } inj.2
      rw [hun]
      refine ⟨?_, ?_, i3⟩
      · intro f c' h
        rcases List.mem_cons.1 h with h | h
        · simp only [Prod.mk.injEq] at h; obtain ⟨rfl, rfl⟩ := h
          rw [i2 _ (fun x hx => (inj.1 x hx).symm), hc]; simp
        · rw [i1 f c' h]
          cases c'.param with
          | some => rfl
          | none => simp [Ne.symm (inj.1 (f, c') h)]
      · intro o ho
        rw [i2 o (fun x hx => ho x (List.mem_cons_of_mem _ hx))]
        simp [Ne.symm (ho (g, c) (by simp))]

/-! ## C26 — the positions of an error code parameter agree -/

/-- **C26.** For every parameter list, the position recorded for the declared error code parameter is the
position of that parameter, i.e. of the argument passed for it; looking up the parameter at this position
gives the declared parameter back; and inside the body exactly the uses of this parameter are recognised
as having this position.  (In Go, the parameters are all named, and denote different objects.) -/
theorem positions_agree (type : FuncType) (name : GoString) (p : FuncCodeParam)
    (named : AllNamed type.params) (objs : ∀ i ∈ paramNames type.params, ∃ o, i.obj = some o)
    (distinct : (paramNames type.params).Pairwise fun a b => a.obj ≠ b.obj)
    (h : findParamIn name 0 type.params = some p) :
    p.ident.name = name ∧
    (paramNames type.params)[p.position]? = some p.ident ∧
    getParamIdent type p.position = some p.ident ∧
    (∀ i, getParamPosition type i = some p.position ↔ i.obj = p.ident.obj) := by
  obtain ⟨pre, post, h1, h2, h3, h4⟩ := findParamIn_some h
  simp only [Nat.zero_add] at h2
  have hat : (paramNames type.params)[p.position]? = some p.ident := by rw [h1, h2]; simp
  refine ⟨h3, hat, by rw [getParamIdent_named named]; exact hat, ?_⟩
  obtain ⟨o, ho⟩ := objs p.ident (by rw [h1]; simp)
  intro i
  unfold getParamPosition
  cases hi : i.obj with
  | none => simp [ho]
  | some o' =>
    show paramPositionLoop o' 0 type.params = some p.position ↔ _
    rw [paramPositionLoop_named named]
    simp only [Nat.zero_add, Option.map_id']
    rw [List.findIdx?_eq_some_iff_getElem]
    constructor
    · rintro ⟨hlt, hx, -⟩
      rw [List.getElem?_eq_getElem hlt, Option.some.injEq] at hat
      rw [hat] at hx
      simpa using (beq_iff_eq.1 hx).symm
    · intro he
      have hlt : p.position < (paramNames type.params).length := by
        rw [h1, h2]; simp
      rw [List.getElem?_eq_getElem hlt, Option.some.injEq] at hat
      refine ⟨hlt, by rw [hat, he]; simp, ?_⟩
      intro j hj
      have := List.pairwise_iff_getElem.1 distinct j p.position (by omega) hlt hj
      rw [hat] at this
      simp only [beq_iff_eq]
      intro hx; exact this (by rw [hx, he])

/-! ## Non-vacuity -/

/-- `func f(a int, code, msg string) (n int, err error)` with codes parameter `code`. -/
def exType : FuncType :=
  ⟨[⟨[⟨1, b!"a", some 1⟩], 10⟩, ⟨[⟨2, b!"code", some 2⟩, ⟨3, b!"msg", some 3⟩], 11⟩],
   some [⟨[⟨4, b!"n", some 4⟩], 12⟩, ⟨[⟨5, b!"err", some 5⟩], 13⟩], 20⟩

/-- A type environment where node 13 (`error`) implements error and nodes 2 and 3 are strings. -/
def exEnv : Env where
  funcs := [⟨100, some ⟨101, b!"f", none⟩, exType, some [], 30, 40⟩]
  objects := []
  typeOf := fun n => if n = 13 then .named 0 else if n = 2 ∨ n = 3 then .string else .other 0
  value := fun _ => none
  callee := fun _ => none
  uses := fun _ => none
  selection := fun _ => none
  pkgName := fun _ => none
  funcObj := fun f => f
  implError := fun t => t = .named 0
  implCode := fun _ => false
  sigResults := fun _ => 0
  methodSet := fun _ _ => none
  functions := fun _ => none
  methods := fun _ => []
  comments := fun _ => []
  isPrint := fun r => decide (32 ≤ r) && decide (r < 127)
  facts := ⟨fun _ => none, fun _ => none, fun _ => none, fun _ => none⟩

/-- Function 0 declares `x-1` and the parameter `code`. -/
def exDecls : Decls where
  name := fun _ => b!"f"
  exported := fun _ => true
  recv := fun _ => none
  doc := fun f => if f = 0 then some b!"F.\n\nErrors:\n\n - x-1 -- when\n - param: code -- given\n" else none
  implCause := fun _ => false
  pos := fun f => 1000 + f

-- The declaration is found with its parameter at position 1.
example : (findClaimedErrorCodes exEnv exDecls false [0]).1 =
    [(0, ⟨[b!"x-1"], some ⟨⟨2, b!"code", some 2⟩, 1⟩⟩)] := by decide
-- Function 1 has no declaration: reported exactly under `-strict`.
example : (findClaimedErrorCodes exEnv exDecls true [0, 1]).2 = [⟨1001, .exportedUndeclared (exDecls.name 1)⟩] := by decide
example : (findClaimedErrorCodes exEnv exDecls false [0, 1]).2 = [] := by decide
example : checkFunctionReturnsError exEnv exType = .ok (true, []) := by decide
-- `func(err error, n int)`-like results: the error is reported.
example : checkFunctionReturnsError exEnv ⟨[], some [⟨[], 13⟩, ⟨[], 12⟩], 0⟩ = .ok (false, [⟨13, .errorNotLast⟩]) := by decide
-- The hypotheses of `positions_agree` hold for this function.
example : AllNamed exType.params ∧ (∀ i ∈ paramNames exType.params, ∃ o, i.obj = some o) ∧
    ((paramNames exType.params).Pairwise fun a b => a.obj ≠ b.obj) ∧
    findParamIn b!"code" 0 exType.params = some ⟨⟨2, b!"code", some 2⟩, 1⟩ := by
  refine ⟨by simp [AllNamed, exType], by simp [paramNames, exType], by simp [paramNames, exType], by decide⟩
-- The fact exported for function 0 is what it declares.
example : (exportErrorCodeFacts exEnv (findClaimedErrorCodes exEnv exDecls false [0, 1]).1 exEnv.facts).codes 0 = some [b!"x-1"] := by
  decide

end Serum.Props.Claims
