import Verif.RunOnce
import Verif.Props.Soundness

/-!
# Whole runs over a package

The properties of the previous files, for a complete run of the analyzer over one package: from the source and the imported facts
(`Package`) to the exported facts and diagnostics (`Outcome`), for every order in which Go's maps may be iterated (`Schedule`).
-/

namespace Serum.Props.Run
open Serum RunSpec ConvSpec

variable {P : Package} {S : Schedule} {strict : Bool} {out : Outcome}

/-! ## The facts during the run -/

theorem _root_.Serum.Prepared.facts_during {s : Stages} (h : Prepared P S strict s out) (hS : S.Fair) (ho : Objects P) (hp : Interfaces.Program P.ifaces) :
    s.facts = during P out.facts := by
  obtain ⟨h1, h2, h3, h4, h5, h6⟩ := h.out_rest hS ho
  have hcl : ∀ x ∈ S.codesExport s.claims, x.1 ∈ P.funcs := fun x hx =>
    Prepared.kept_sub ((h.claims_iff hS ho.funcs (f := x.1) (c := x.2)).1 ((hS.codesExport _).mem_iff.1 hx)).1
  have hc : s.facts.codes = (during P out.facts).codes := by
    funext o
    unfold during
    dsimp only
    split
    · rename_i he
      obtain ⟨f, hf, rfl⟩ := he
      exact h.own_unknown hS ho hp hf
    · rename_i he
      rw [h.exported, (Claims.exportCodes_spec P.start (S.codesExport s.claims) s.facts
        (h.claims_pairwise hS ho (hS.codesExport _))).2.1 o fun x hx hx' => he ⟨x.1, hcl x hx, hx'⟩]
  unfold during at hc ⊢
  cases hs : s.facts
  cases ho' : out.facts
  rw [hs] at hc h1 h4 h5
  rw [ho'] at hc h1 h2 h3
  simp only at hc h1 h2 h3 h4 h5 ⊢
  rw [hc, h1, h5, h4, h2, h3]

theorem facts_during {s : Stages} (h : Ran P S strict s out) (hS : S.Fair) (ho : Objects P) (hp : Interfaces.Program P.ifaces) :
    s.facts = during P out.facts := h.toPrepared.facts_during hS ho hp

/-! ## C21 — a run ends -/

/-- **C21**, for a run: whatever the package and the order of iteration, the bounds on recursion built into the model are never
reached — neither for the search over functions, nor for the collection of interfaces, nor for the tagging of error types. -/
theorem run_terminates (hS : S.Fair) : runVerify P S strict ≠ .error .outOfFuel := run_fuelled P S hS strict

/-- **C21**: nor when variables are followed in a function body, whatever facts are known. -/
theorem bodies_terminate (hc : ∀ f body, (P.env.func f).body = some body → ConstOk P.env body) (facts : Facts) (f : FnId) :
    Analyse.bodyPlan (P.at_ facts) P.depth f ≠ .error .outOfFuel :=
  (Bodies.analysis_terminates (P.at_ facts) (fun f body hb => hc f body hb) P.depth (Nat.le_refl _) []).1 f

/-! ## C36 — misplaced error results -/

/-- **C36**, for a run: reported are exactly the results implementing `error` of the functions and methods whose last result does
not. -/
theorem signatures_exact (h : runVerify P S strict = .ok out) (hS : S.Fair) (hn : P.funcs.Nodup) (x : ClaimDiag) :
    x ∈ out.signatures ↔ ∃ f, Kept P f ∧ ¬ ReturnsError P f ∧ ∃ results r, (P.env.func f).type.results = some results ∧ r ∈ results ∧
      P.env.implError (P.env.typeOf r.typ) = true ∧ x = ⟨r.typ, .errorNotLast⟩ := by
  obtain ⟨s, h⟩ := ran_iff.1 h
  have key : ∀ (fs funcs : List FnId) (ds : List ClaimDiag), findErrorReturningFunctions (P.at_ s.collected) fs = .ok (funcs, ds) →
      (x ∈ ds ↔ ∃ f ∈ fs, ¬ ReturnsError P f ∧ ∃ results r, (P.env.func f).type.results = some results ∧ r ∈ results ∧
        P.env.implError (P.env.typeOf r.typ) = true ∧ x = ⟨r.typ, .errorNotLast⟩) := by
    intro fs
    induction fs with
    | nil => intro funcs ds h; cases h; simp
    | cons f fs ih =>
      intro funcs ds h
      unfold findErrorReturningFunctions at h
      simp only [bind, Except.bind, pure, Except.pure] at h
      split at h
      · cases h
      rename_i r1 h1
      split at h
      · cases h
      rename_i r2 h2
      cases h
      obtain ⟨g1, g2, -⟩ := Claims.misplaced_exact (P.at_ s.collected) _ r1.1 r1.2 h1
      have g1 : r1.1 = true ↔ ReturnsError P f := g1
      have g3 := g2 x
      rw [List.mem_append, ih _ _ h2, g3]
      rw [show (r1.1 = false) = ¬ ReturnsError P f from by rw [← g1]; simp]
      constructor
      · rintro (hx | ⟨f', hf', hx⟩)
        · exact ⟨f, by simp, hx⟩
        · exact ⟨f', by simp [hf'], hx⟩
      · rintro ⟨f', hf', hx⟩
        rcases List.mem_cons.1 hf' with rfl | hf'
        · exact .inl hx
        · exact .inr ⟨f', hf', hx⟩
  rw [key _ _ _ h.funcs]
  constructor
  · rintro ⟨f, hf, hx⟩; exact ⟨f, (kept_iff hn).1 ((hS.functions _).mem_iff.1 hf), hx⟩
  · rintro ⟨f, hf, hx⟩; exact ⟨f, (hS.functions _).mem_iff.2 ((kept_iff hn).2 hf), hx⟩

/-! ## C35 — `-strict` only adds reports -/

/-- The functions `-strict` complains about: exported, returning an error, without declaration, and not the `Cause` method of an
error type. -/
def StrictTarget (P : Package) (f : FnId) : Prop :=
  Kept P f ∧ ReturnsError P f ∧ Claims.Undeclared P.decls f ∧ P.decls.exported f = true ∧ isCauseMethod P.env P.decls f = false

/-- **C35**, for a run: with `-strict`, a run ends in the same way and has the same outcome, except for additional reports "is
exported, but does not declare any error codes": exactly one for each exported error-returning function without a declaration
(except `Cause` methods). -/
theorem strict_run (hS : S.Fair) (hn : P.funcs.Nodup) :
    (∀ e, runVerify P S true = .error e ↔ runVerify P S false = .error e) ∧
    ∀ out, runVerify P S false = .ok out → ∃ reports, runVerify P S true = .ok { out with claims := reports } ∧
      reports.filter (fun x => !Claims.isStrictReport x) = out.claims ∧
      ∃ targets : List FnId, targets.Nodup ∧ (∀ f, f ∈ targets ↔ StrictTarget P f) ∧
        reports.filter Claims.isStrictReport = targets.map fun f => ⟨P.decls.pos f, .exportedUndeclared (P.decls.name f)⟩ := by
  have hok : ∀ out, runVerify P S false = .ok out → ∃ reports, runVerify P S true = .ok { out with claims := reports } ∧
      reports.filter (fun x => !Claims.isStrictReport x) = out.claims ∧
      ∃ targets : List FnId, targets.Nodup ∧ (∀ f, f ∈ targets ↔ StrictTarget P f) ∧
        reports.filter Claims.isStrictReport = targets.map fun f => ⟨P.decls.pos f, .exportedUndeclared (P.decls.name f)⟩ := by
    intro out h
    obtain ⟨s, h⟩ := ran_iff.1 h
    obtain ⟨h1, h2, ts, h3, h4, h5⟩ := Claims.strict_only_adds (P.at_ s.collected) P.decls s.funcs
    have hc := h.claims
    refine ⟨(findClaimedErrorCodes (P.at_ s.collected) P.decls true s.funcs).2, ran_iff.2 ⟨s, ?_⟩, ?_, ts, ?_, fun f => ?_, h5⟩
    · refine ⟨⟨h.tag, h.find, h.collected, h.funcs, ?_, h.facts, h.exported⟩, h.search, h.conv, h.bodies, h.mismatches⟩
      exact Prod.ext (by rw [h1, hc]) rfl
    · rw [h2, hc]
    · exact h3.nodup (h.funcs_nodup hS hn)
    · rw [h4, h.funcs_iff hS hn, and_assoc]
      exact Iff.rfl
  refine ⟨fun e => ?_, hok⟩
  -- the other direction: the lenient run fails if the strict one does
  have hback : ∀ out, runVerify P S true = .ok out → ∃ out', runVerify P S false = .ok out' := by
    intro out h
    obtain ⟨s, h⟩ := ran_iff.1 h
    obtain ⟨h1, -⟩ := Claims.strict_only_adds (P.at_ s.collected) P.decls s.funcs
    have hc := h.claims
    refine ⟨{ out with claims := (findClaimedErrorCodes (P.at_ s.collected) P.decls false s.funcs).2 }, ran_iff.2 ⟨s, ?_⟩⟩
    refine ⟨⟨h.tag, h.find, h.collected, h.funcs, ?_, h.facts, h.exported⟩, h.search, h.conv, h.bodies, h.mismatches⟩
    exact Prod.ext (by rw [← h1, hc]) rfl
  have herr : ∀ b e, runVerify P S b = .error e → runVerify P S (!b) = .error e ∨ ∃ out, runVerify P S (!b) = .ok out := by
    intro b e h
    unfold runVerify at h ⊢
    simp only [bind, Except.bind] at h ⊢
    split at h
    · cases h; exact .inl rfl
    rename_i r1 h1
    obtain ⟨tagged, tags⟩ := r1
    simp only at h ⊢
    split at h
    · cases h; exact .inl rfl
    rename_i r2 h2
    obtain ⟨ifaces, ifaceDiags⟩ := r2
    simp only at h ⊢
    split at h
    · cases h; exact .inl rfl
    rename_i r3 h3
    obtain ⟨funcs, signatures⟩ := r3
    simp only at h ⊢
    have hcl : (findClaimedErrorCodes (P.at_ (Interfaces.exportFacts (P.ifaceInfo S) (S.ifaceExport ifaces) tagged)) P.decls b funcs).1 =
        (findClaimedErrorCodes (P.at_ (Interfaces.exportFacts (P.ifaceInfo S) (S.ifaceExport ifaces) tagged)) P.decls (!b) funcs).1 := by
      have := (Claims.strict_only_adds (P.at_ (Interfaces.exportFacts (P.ifaceInfo S) (S.ifaceExport ifaces) tagged)) P.decls funcs).1
      cases b
      · exact this.symm
      · exact this
    rw [hcl] at h
    split at h
    · cases h; exact .inl rfl
    rename_i r4 h4
    obtain ⟨found, st⟩ := r4
    simp only [h4] at h ⊢
    split at h
    · cases h; exact .inl rfl
    · cases h
  constructor
  · intro h
    rcases herr true e h with h' | ⟨out, h'⟩
    · exact h'
    · obtain ⟨_, h'', _⟩ := hok out h'; rw [h] at h''; cases h''
  · intro h
    rcases herr false e h with h' | ⟨out, h'⟩
    · exact h'
    · obtain ⟨_, h''⟩ := hback out h'; rw [h] at h''; cases h''

/-! ## C38 — the exported facts -/

/-- **C38**, for a run: afterwards the codes recorded for a function of the package are exactly those it declares (if it is compared
with its declaration at all), for an interface method those it declares, and for any other object what has been imported. -/
theorem exported_codes (h : runVerify P S strict = .ok out) (hS : S.Fair) (ho : Objects P) (hp : Interfaces.Program P.ifaces) :
    (∀ f ∈ P.funcs, ∀ C, out.facts.codes (P.env.funcObj f) = some C ↔ ∃ c, Compared P f c ∧ C = c.codes) ∧
    (∀ d ∈ P.ifaces, ∀ im, .method im ∈ d.elements → ∀ C, out.facts.codes (P.methodObj im.ident.id) = some C ↔ MethodDeclares P im C) ∧
    (∀ o, (∀ f ∈ P.funcs, P.env.funcObj f ≠ o) → (∀ d ∈ P.ifaces, ∀ im, .method im ∈ d.elements → P.methodObj im.ident.id ≠ o) →
      out.facts.codes o = P.env.facts.codes o) := by
  obtain ⟨s, h⟩ := ran_iff.1 h
  exact h.out_codes hS ho hp

/-- **C38/C26**: a function is recorded as error constructor exactly if it declares an error code parameter, with the position of
that parameter. -/
theorem exported_constructors (h : runVerify P S strict = .ok out) (hS : S.Fair) (ho : Objects P) :
    (∀ f ∈ P.funcs, ∀ n, out.facts.ctor (P.env.funcObj f) = some n ↔ ∃ c p, Compared P f c ∧ c.param = some p ∧ n = p.position) ∧
    (∀ o, (∀ f ∈ P.funcs, P.env.funcObj f ≠ o) → out.facts.ctor o = P.env.facts.ctor o) := by
  obtain ⟨s, h⟩ := ran_iff.1 h
  rw [(h.out_rest hS ho).1]
  exact h.out_ctor hS ho

theorem _root_.Serum.Prepared.interfaces_partial {s : Stages} (h : Prepared P S strict s out) (hS : S.Fair) (ho : Objects P) (hp : Interfaces.Program P.ifaces) :
    (∀ d ∈ P.ifaces, ((∃ ms, out.facts.interface d.obj = some ms) ↔ ∃ m C, IfaceSpec.Has P.env P.ifaces d m C) ∧
      ∀ ms, out.facts.interface d.obj = some ms → (ms.map Prod.fst).Nodup ∧
        (∀ m, (∃ C, (m, C) ∈ ms) ↔ ∃ C, IfaceSpec.Has P.env P.ifaces d m C) ∧
        (∀ m C, (m, C) ∈ ms → IfaceSpec.Has P.env P.ifaces d m C) ∧
        (∀ im C, .method im ∈ d.elements → MethodDeclares P im C → (im.ident.name, C) ∈ ms) ∧
        ((¬ ∃ x ∈ out.ifaces, ∃ m text, x.msg = .incompatible m text) → ∀ m C C', (m, C) ∈ ms → IfaceSpec.Has P.env P.ifaces d m C' →
          IfaceSpec.Same C C')) ∧
    (∀ o, (∀ d ∈ P.ifaces, d.obj ≠ o) → out.facts.interface o = P.env.facts.interface o) := by
  rw [(h.out_rest hS ho).2.2.1]
  obtain ⟨h1, h2⟩ := h.out_interface hS ho hp
  obtain ⟨hfin, -, -⟩ := Interfaces.finished (h.iface_fair hS ho) hp hS.ifaceNames h.find
  refine ⟨fun d hd => ?_, h2⟩
  rw [h1 d hd]
  have hfin := hfin d hd
  cases hg : s.ifaces.get d.name with
  | none =>
    rw [hg] at hfin
    exact ⟨⟨fun ⟨ms, hm⟩ => (nomatch hm), fun ⟨m, C, hm⟩ => (hfin m C (h.has_iff.2 hm)).elim⟩, fun ms hm => (nomatch hm)⟩
  | some i =>
    rw [hg] at hfin
    simp only at hfin
    have hmem : ∀ m C, (m, C) ∈ i.methods.map (fun m => (m.1, m.2.codes)) ↔ ∃ em, i.methods.get m = some em ∧ C = em.codes := by
      intro m C
      constructor
      · intro hm
        obtain ⟨⟨m', em⟩, hme, he⟩ := List.mem_map.1 hm
        simp only [Prod.mk.injEq] at he
        obtain ⟨rfl, rfl⟩ := he
        exact ⟨em, Table.get_of_mem hfin.holds.nodup hme, rfl⟩
      · rintro ⟨em, hm, rfl⟩
        exact List.mem_map.2 ⟨_, Table.mem_of_get hm, rfl⟩
    refine ⟨⟨fun _ => ?_, fun _ => ⟨_, rfl⟩⟩, ?_⟩
    · obtain ⟨e, es, he⟩ := List.exists_cons_of_ne_nil hfin.nonempty
      have : i.methods.get e.1 = some e.2 := by rw [he, Table.get_cons]; simp
      exact ⟨e.1, e.2.codes, h.has_iff.1 (hfin.holds.sound _ _ this)⟩
    · intro ms hms
      cases hms
      refine ⟨?_, fun m => ?_, fun m C hm => ?_, fun im C him hC => ?_, fun hno m C C' hm hC' => ?_⟩
      · rw [List.map_map]; exact hfin.holds.nodup
      · constructor
        · rintro ⟨C, hm⟩
          obtain ⟨em, hme, rfl⟩ := (hmem m C).1 hm
          exact ⟨_, h.has_iff.1 (hfin.holds.sound m em hme)⟩
        · rintro ⟨C, hC⟩
          obtain ⟨em, hm⟩ := hfin.holds.complete m C (h.has_iff.2 hC)
          exact ⟨em.codes, (hmem m _).2 ⟨em, hm, rfl⟩⟩
      · obtain ⟨em, hme, rfl⟩ := (hmem m C).1 hm
        exact h.has_iff.1 (hfin.holds.sound m em hme)
      · exact (hmem _ _).2 ⟨_, hfin.own _ _ ⟨im, him, rfl, methodDeclares_iff.1 hC⟩, rfl⟩
      · obtain ⟨em, hme, rfl⟩ := (hmem m C).1 hm
        exact hfin.holds.agree (fun x hx m' t he => hno ⟨x, hx, m', t, he⟩) m em C' hme (h.has_iff.2 hC')

/-- **C38/C33**: recorded interfaces.  An interface of the package is recorded exactly if it has error methods of its own or through
embedding; the record has one entry for each of them, with codes declared for it, its own declaration if there is one, and all
declarations agree unless an incompatibility was reported. -/
theorem exported_interfaces_partial (h : runVerify P S strict = .ok out) (hS : S.Fair) (ho : Objects P) (hp : Interfaces.Program P.ifaces) :
    (∀ d ∈ P.ifaces, ((∃ ms, out.facts.interface d.obj = some ms) ↔ ∃ m C, IfaceSpec.Has P.env P.ifaces d m C) ∧
      ∀ ms, out.facts.interface d.obj = some ms → (ms.map Prod.fst).Nodup ∧
        (∀ m, (∃ C, (m, C) ∈ ms) ↔ ∃ C, IfaceSpec.Has P.env P.ifaces d m C) ∧
        (∀ m C, (m, C) ∈ ms → IfaceSpec.Has P.env P.ifaces d m C) ∧
        (∀ im C, .method im ∈ d.elements → MethodDeclares P im C → (im.ident.name, C) ∈ ms) ∧
        ((¬ ∃ x ∈ out.ifaces, ∃ m text, x.msg = .incompatible m text) → ∀ m C C', (m, C) ∈ ms → IfaceSpec.Has P.env P.ifaces d m C' →
          IfaceSpec.Same C C')) ∧
    (∀ o, (∀ d ∈ P.ifaces, d.obj ≠ o) → out.facts.interface o = P.env.facts.interface o) := by
  obtain ⟨s, h⟩ := ran_iff.1 h
  exact h.toPrepared.interfaces_partial hS ho hp

/-! ## C12, with C17–C19 — the mismatches reported -/

private theorem unique_of_nodup {α β : Type} {l : List (α × β)} (hn : (l.map Prod.fst).Nodup) {a : α} {b b' : β} (h : (a, b) ∈ l)
    (h' : (a, b') ∈ l) : b = b' := by
  induction l with
  | nil => cases h
  | cons x l ih =>
    simp only [List.map_cons, List.nodup_cons, List.mem_map, not_exists, not_and] at hn
    rcases List.mem_cons.1 h with e | h
    · rcases List.mem_cons.1 h' with e' | h'
      · exact (Prod.ext_iff.1 (e.trans e'.symm)).2
      · exact absurd (congrArg Prod.fst e) (hn.1 (a, b') h')
    · rcases List.mem_cons.1 h' with e' | h'
      · exact absurd (congrArg Prod.fst e') (hn.1 (a, b) h)
      · exact ih hn.2 h h'

/-- What is reported, in terms of the codes found. -/
theorem mismatches_found {s : Stages} (h : Ran P S strict s out) (hS : S.Fair) (ho : Objects P) :
    (∀ f text, (f, text) ∈ out.mismatches ↔ ∃ c C missing unused, Compared P f c ∧ (f, C) ∈ s.found ∧
      Lists missing (fun x => x ∈ C ∧ x ∉ c.codes) ∧ Lists unused (fun x => x ∈ c.codes ∧ x ∉ C) ∧
      (missing ≠ [] ∨ unused ≠ []) ∧ text = Reports.mismatchText missing unused) ∧
    (out.mismatches.map Prod.fst).Nodup := by
  have hfst := (CallGraph.found_iff_reached h.search).1
  have hzip : ∀ (claims : List (FnId × FuncCodes)) (found : List (FnId × CodeSet)), found.map Prod.fst = claims.map Prod.fst →
      ∀ x y, (x, y) ∈ claims.zip found → x.1 = y.1 := by
    intro claims
    induction claims with
    | nil => intro found _ x y hm; cases hm
    | cons a claims ih =>
      intro found hf x y hm
      cases found with
      | nil => cases hm
      | cons b found =>
        simp only [List.map_cons, List.cons.injEq] at hf
        rw [List.zip_cons_cons, List.mem_cons] at hm
        rcases hm with hm | hm
        · cases hm; exact hf.1.symm
        · exact ih found hf.2 x y hm
  have hzip' : ∀ (claims : List (FnId × FuncCodes)) (found : List (FnId × CodeSet)), found.map Prod.fst = claims.map Prod.fst →
      ∀ x ∈ claims, ∃ y, (x, y) ∈ claims.zip found := by
    intro claims
    induction claims with
    | nil => intro found _ x hm; cases hm
    | cons a claims ih =>
      intro found hf x hm
      cases found with
      | nil => cases hf
      | cons b found =>
        simp only [List.map_cons, List.cons.injEq] at hf
        rw [List.zip_cons_cons]
        rcases List.mem_cons.1 hm with rfl | hm
        · exact ⟨b, by simp⟩
        · obtain ⟨y, hy⟩ := ih found hf.2 x hm
          exact ⟨y, by simp [hy]⟩
  have hone : ∀ f c C text, reportIfCodesDoNotMatch (S.claimMatch f) C c = some text ↔
      ∃ missing unused, Lists missing (fun x => x ∈ C ∧ x ∉ c) ∧
        Lists unused (fun x => x ∈ c ∧ x ∉ C) ∧ (missing ≠ [] ∨ unused ≠ []) ∧
        text = Reports.mismatchText missing unused := by
    intro f c C text
    obtain ⟨m1, missing, unused, lm', lu', m2⟩ := Reports.mismatch_exact (S.claimMatch f) (hS.claimMatch f) C c
    have lm : Lists missing (fun x => x ∈ C ∧ x ∉ c) := lm'
    have lu : Lists unused (fun x => x ∈ c ∧ x ∉ C) := lu'
    have huniq : ∀ {l l' : List GoString} {p}, Lists l p → Lists l' p → l = l' := fun h h' =>
      Reports.ascending_unique h.2.1 h'.2.1 ((List.perm_ext_iff_of_nodup h.1 h'.1).2 fun c => by rw [h.2.2, h'.2.2])
    have hbool : (checkIfErrorCodesMatch (S.claimMatch f) C c).1 = false ↔ (missing ≠ [] ∨ unused ≠ []) := by
      rw [← Bool.not_eq_true, m1]
      constructor
      · intro hne
        refine Classical.byContradiction fun hno => hne fun x => ?_
        rw [not_or, Classical.not_not, Classical.not_not] at hno
        have a := lm.2.2 x
        have b := lu.2.2 x
        rw [hno.1] at a; rw [hno.2] at b
        simp only [List.not_mem_nil, false_iff, not_and, Classical.not_not] at a b
        exact ⟨a, b⟩
      · rintro (hne | hne) hall
        · obtain ⟨x, xs, he⟩ := List.exists_cons_of_ne_nil hne
          have := (lm.2.2 x).1 (by rw [he]; simp)
          exact this.2 ((hall x).1 this.1)
        · obtain ⟨x, xs, he⟩ := List.exists_cons_of_ne_nil hne
          have := (lu.2.2 x).1 (by rw [he]; simp)
          exact this.2 ((hall x).2 this.1)
    unfold reportIfCodesDoNotMatch
    cases hcheck : checkIfErrorCodesMatch (S.claimMatch f) C c with
    | mk b t =>
      rw [hcheck] at hbool m2
      simp only at hbool m2
      cases b with
      | true =>
        simp only [reduceCtorEq, false_iff]
        rintro ⟨m', u', l1, l2, hne, -⟩
        rw [huniq l1 lm', huniq l2 lu'] at hne
        have := hbool.2 hne
        cases this
      | false =>
        simp only [Option.some.injEq]
        constructor
        · rintro rfl; exact ⟨missing, unused, lm', lu', hbool.1 rfl, m2⟩
        · rintro ⟨m', u', l1, l2, -, rfl⟩
          rw [huniq l1 lm', huniq l2 lu']; exact m2
  rw [h.mismatches]
  unfold Serum.mismatches
  refine ⟨fun f text => ?_, ?_⟩
  · rw [List.mem_filterMap]
    constructor
    · rintro ⟨⟨⟨g, c⟩, ⟨g', C⟩⟩, hm, he⟩
      have hgg := hzip _ _ hfst _ _ hm
      simp only at hgg
      subst hgg
      simp only [Option.map_eq_some_iff, Prod.mk.injEq] at he
      obtain ⟨t, ht, rfl, rfl⟩ := he
      have hz := List.of_mem_zip hm
      obtain ⟨missing, unused, a1, a2, a3, a4⟩ := (hone g c.codes C t).1 ht
      exact ⟨c, C, missing, unused, (h.claims_iff hS ho.funcs).1 ((hS.claims _).mem_iff.1 hz.1), hz.2, a1, a2, a3, a4⟩
    · rintro ⟨c, C, missing, unused, hcomp, hC, a1, a2, a3, a4⟩
      obtain ⟨⟨g', C'⟩, hm⟩ := hzip' _ _ hfst (f, c) ((hS.claims _).mem_iff.2 ((h.claims_iff hS ho.funcs).2 hcomp))
      have hgg := hzip _ _ hfst _ _ hm
      simp only at hgg
      subst hgg
      have hnd : (s.found.map Prod.fst).Nodup := by rw [hfst]; exact h.order_nodup hS ho.funcs
      have hCC : C' = C := unique_of_nodup hnd (List.of_mem_zip hm).2 hC
      subst hCC
      refine ⟨_, hm, ?_⟩
      rw [Option.map_eq_some_iff]
      exact ⟨text, (hone f c.codes C' text).2 ⟨missing, unused, a1, a2, a3, a4⟩, rfl⟩
  · have hsub : ∀ (claims : List (FnId × FuncCodes)) (found : List (FnId × CodeSet)), (((claims.zip found).filterMap fun (claim, result) =>
        (reportIfCodesDoNotMatch (S.claimMatch claim.1) result.2 claim.2.codes).map fun text => (claim.1, text)).map Prod.fst).Sublist
        (claims.map Prod.fst) := by
      intro claims
      induction claims with
      | nil => intro found; exact .slnil
      | cons a claims ih =>
        intro found
        cases found with
        | nil => simp
        | cons b found =>
          rw [List.zip_cons_cons, List.filterMap_cons]
          simp only
          cases reportIfCodesDoNotMatch (S.claimMatch a.1) b.2 a.2.codes with
          | none => exact (ih found).cons _
          | some t => exact (ih found).cons_cons _
    exact (hsub _ _).nodup (h.order_nodup hS ho.funcs)

/-- **C12/C17–C19**, for a run: a mismatch is reported for a function exactly if it is compared with its declaration and its codes
differ from the declared ones; the text lists exactly the differences; at most one report per function.  (The codes of a function
are those of the least consistent assignment, with the bodies as they are understood with the facts known then.)

Partial: for functions that can reach a literal calling back only `undeclared_derivable` holds. -/
theorem mismatches_exact_partial (h : runVerify P S strict = .ok out) (hS : S.Fair) (ho : Objects P) (hp : Interfaces.Program P.ifaces) :
    (∀ f, CallGraph.Settled (P.plan (during P out.facts)) f → ∀ text, (f, text) ∈ out.mismatches ↔ ∃ c missing unused, Compared P f c ∧
      Lists missing (fun x => CodesOf (P.plan (during P out.facts)) f x ∧ x ∉ c.codes) ∧
      Lists unused (fun x => x ∈ c.codes ∧ ¬ CodesOf (P.plan (during P out.facts)) f x) ∧
      (missing ≠ [] ∨ unused ≠ []) ∧ text = Reports.mismatchText missing unused) ∧
    (out.mismatches.map Prod.fst).Nodup := by
  obtain ⟨s, h⟩ := ran_iff.1 h
  rw [← facts_during h hS ho hp]
  obtain ⟨hiff, hnd⟩ := mismatches_found h hS ho
  obtain ⟨hfst, hcodes⟩ := CallGraph.codes_are_least_partial h.search
  refine ⟨fun f hs text => ?_, hnd⟩
  rw [hiff]
  constructor
  · rintro ⟨c, C, missing, unused, h1, h2, h3, h4, h5, h6⟩
    have hcc := hcodes f C h2 hs
    exact ⟨c, missing, unused, h1, ⟨h3.1, h3.2.1, fun x => by rw [h3.2.2]; simp only [hcc]⟩, ⟨h4.1, h4.2.1, fun x => by rw [h4.2.2]; simp only [hcc]⟩, h5, h6⟩
  · rintro ⟨c, missing, unused, h1, h3, h4, h5, h6⟩
    have hf : f ∈ s.found.map Prod.fst := by rw [hfst]; exact List.mem_map.2 ⟨_, (hS.claims _).mem_iff.2 ((h.claims_iff hS ho.funcs).2 h1), rfl⟩
    obtain ⟨⟨f', C⟩, hC, rfl⟩ := List.mem_map.1 hf
    have hcc := hcodes f' C hC hs
    exact ⟨c, C, missing, unused, h1, hC, ⟨h3.1, h3.2.1, fun x => by rw [h3.2.2]; simp only [hcc]⟩, ⟨h4.1, h4.2.1, fun x => by rw [h4.2.2]; simp only [hcc]⟩, h5, h6⟩

/-- **C12/C19**, for every run: each code reported as missing from a declaration is really derivable for the function and not declared;
each code reported as unused is declared and does not occur in the body of the function itself; the text is built from these codes.
And if a code comes out of the body itself without any call and is not declared, then a mismatch is reported for the function. -/
theorem undeclared_derivable (h : runVerify P S strict = .ok out) (hS : S.Fair) (ho : Objects P) (hp : Interfaces.Program P.ifaces) :
    (∀ f text, (f, text) ∈ out.mismatches → ∃ c missing unused, Compared P f c ∧ text = Reports.mismatchText missing unused ∧
      (missing ≠ [] ∨ unused ≠ []) ∧
      (∀ x ∈ missing, CodesOf (P.plan (during P out.facts)) f x ∧ x ∉ c.codes) ∧
      (∀ x ∈ unused, x ∈ c.codes ∧ ¬ (P.plan (during P out.facts) f).Yields (fun _ _ => False) x)) ∧
    (∀ f c, Compared P f c → ∀ x, (P.plan (during P out.facts) f).Yields (fun _ _ => False) x → x ∉ c.codes →
      ∃ text, (f, text) ∈ out.mismatches) := by
  obtain ⟨s, h⟩ := ran_iff.1 h
  rw [← facts_during h hS ho hp]
  obtain ⟨hiff, -⟩ := mismatches_found h hS ho
  refine ⟨fun f text hm => ?_, fun f c hc x hx hno => ?_⟩
  · obtain ⟨c, C, missing, unused, h1, h2, h3, h4, h5, h6⟩ := (hiff f text).1 hm
    refine ⟨c, missing, unused, h1, h6, h5, fun x hx => ?_, fun x hx => ?_⟩
    · obtain ⟨a, b⟩ := (h3.2.2 x).1 hx
      exact ⟨(CallGraph.found_derivable h.search).1 f C h2 x a, b⟩
    · obtain ⟨a, b⟩ := (h4.2.2 x).1 hx
      exact ⟨a, fun hy => b ((CallGraph.own_found h.search).1 f C h2 x hy)⟩
  · have hf : f ∈ s.found.map Prod.fst := by
      rw [(CallGraph.found_iff_reached h.search).1]; exact List.mem_map.2 ⟨_, (hS.claims _).mem_iff.2 ((h.claims_iff hS ho.funcs).2 hc), rfl⟩
    obtain ⟨⟨f', C⟩, hC, rfl⟩ := List.mem_map.1 hf
    obtain ⟨-, missing, unused, lm, lu, -⟩ := Reports.mismatch_exact (S.claimMatch f') (hS.claimMatch f') C c.codes
    refine ⟨_, (hiff f' _).2 ⟨c, C, missing, unused, hc, hC, lm, lu, .inl fun he => ?_, rfl⟩⟩
    have := (lm.2.2 x).2 ⟨(CallGraph.own_found h.search).1 f' C hC x hx, hno⟩
    rw [he] at this
    cases this

end Serum.Props.Run
