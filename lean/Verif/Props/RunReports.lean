import Verif.RunSeen

/-!
# Whole runs: what is reported in bodies and for conversions, and what silence means
-/

namespace Serum.Props.Run
open Serum RunSpec ConvSpec Conv

variable {P : Package} {S : Schedule} {strict : Bool} {out : Outcome}

/-! ## C37 — bodies are looked at once -/

/-- **C37**, for a run: what is wrong in a body is reported exactly once, in the order of the source, if the function is compared with
its declaration, or a method needed for the check of a conversion, or called from such functions; and never otherwise.  It does
not matter how many callers it has, nor whether it is needed both for comparisons and for conversions. -/
theorem bodies_once (h : runVerify P S strict = .ok out) (hS : S.Fair) (ho : Objects P) (hp : Interfaces.Program P.ifaces) (f : FnId) :
    (LookedAt P out.facts f → reportedIn out f = (seen P out.facts f).reports) ∧ (¬ LookedAt P out.facts f → reportedIn out f = []) := by
  obtain ⟨s, h⟩ := ran_iff.1 h
  have e : reportedIn out f = s.final.diagsOf f := by
    unfold reportedIn Search.diagsOf
    rw [h.bodies]
    induction s.final.diags with
    | nil => rfl
    | cons a l ih => by_cases ha : a.1 = f <;> simp [ha, ih]
  have hl := h.looked hS ho hp
  have h0 : ¬ (Search.start : Search FnId Diag).scc.Vis f := by simp [Search.start, Scc.start, Scc.Vis]
  rw [e, ← h.vis_final hS ho hp]
  exact ⟨fun hv => by rw [hl.diags_new f h0 hv]; rfl, fun hv => by rw [hl.diags_not f hv]; rfl⟩

/-! ## C31, C34 — conversions -/

/-- **C31/C34**, for a run: a conversion is reported exactly if a value of type `T` is used as an error interface, the interface's
declaration of a method lacks a code which that method of `T` has, and then exactly these codes are listed.

Partial: `Fine`, and if the method's codes are not declared, its body does not lead to a function literal calling back (`MethodSettled`). -/
theorem conversions_exact_partial (h : runVerify P S strict = .ok out) (hS : S.Fair) (ho : Objects P) (hp : Interfaces.Program P.ifaces)
    {calls : CallKind} (hf : Conversions.Fine (P.at_ out.facts) P.conv calls P.top) (r : Report)
    (hl : ∀ T S, Conversions.ConvertedTo (P.at_ out.facts) P.conv calls P.top T S r.at_ →
      Conversions.MethodSettled (P.at_ out.facts) (seen P out.facts) S r.method) :
    r ∈ out.conversions ↔ ∃ T S ms allowed, Conversions.ConvertedTo (P.at_ out.facts) P.conv calls P.top T S r.at_ ∧ S ≠ T ∧
      S ≠ .untypedNil ∧ IsErrorInterface (P.at_ out.facts) T ms ∧ getNamedType T = r.interface ∧ (r.method, allowed) ∈ ms ∧
      Conversions.Smuggles (P.at_ out.facts) (seen P out.facts) S r.method allowed r.codes := by
  obtain ⟨s, h⟩ := ran_iff.1 h
  rw [← h.program_eq hS ho hp] at hl ⊢
  exact Conversions.reports_exact_partial hS.conv (Ran.declaredOnce ho _) hf ⟨_, _, _, _, _, h.search, h.conv⟩ r hl

/-- One direction, needing the hypothesis for the type in question only. -/
theorem conversion_reported_partial (h : runVerify P S strict = .ok out) (hS : S.Fair) (ho : Objects P) (hp : Interfaces.Program P.ifaces)
    {calls : CallKind} (hf : Conversions.Fine (P.at_ out.facts) P.conv calls P.top) {T S : GoType} {e : NodeId}
    (hc : Conversions.ConvertedTo (P.at_ out.facts) P.conv calls P.top T S e) (hne : S ≠ T) (hnil : S ≠ .untypedNil)
    {ms : List (GoString × CodeSet)} (hi : IsErrorInterface (P.at_ out.facts) T ms) {m : GoString} {allowed : CodeSet} (hm : (m, allowed) ∈ ms)
    (hl : Conversions.MethodSettled (P.at_ out.facts) (seen P out.facts) S m) {codes : List GoString}
    (hx : Conversions.Smuggles (P.at_ out.facts) (seen P out.facts) S m allowed codes) : ⟨e, getNamedType T, m, codes⟩ ∈ out.conversions := by
  obtain ⟨s, h⟩ := ran_iff.1 h
  rw [← h.program_eq hS ho hp] at hl hx
  exact Conversions.smuggled_reported_partial hS.conv (Ran.declaredOnce ho _) hf ⟨_, _, _, _, _, h.search, h.conv⟩ hc hne hnil hi hm hl hx

/-- **C44** for conversions, in every program: the codes listed in a report are codes which that method of the value's type really has,
and which the interface does not declare. -/
theorem conversions_derivable (h : runVerify P S strict = .ok out) (hS : S.Fair) (ho : Objects P) (hp : Interfaces.Program P.ifaces)
    {calls : CallKind} (hf : Conversions.Fine (P.at_ out.facts) P.conv calls P.top) (r : Report) (hr : r ∈ out.conversions) :
    ∃ T S ms allowed, Conversions.ConvertedTo (P.at_ out.facts) P.conv calls P.top T S r.at_ ∧ S ≠ T ∧
      S ≠ .untypedNil ∧ IsErrorInterface (P.at_ out.facts) T ms ∧ getNamedType T = r.interface ∧ (r.method, allowed) ∈ ms ∧
      r.codes ≠ [] ∧ r.codes.Nodup ∧ Reports.Ascending r.codes ∧
      ∀ c ∈ r.codes, MethodCode (P.at_ out.facts) (seen P out.facts) S r.method c ∧ c ∉ allowed := by
  obtain ⟨s, h⟩ := ran_iff.1 h
  rw [← h.program_eq hS ho hp]
  obtain ⟨T, S', ms, al, h1, h2, h3, h4, h5, h6, h7, h8, h9, h10, -⟩ :=
    Conversions.reports_derivable hS.conv (Ran.declaredOnce ho _) hf ⟨_, _, _, _, _, h.search, h.conv⟩ r hr
  exact ⟨T, S', ms, al, h1, h2, h3, h4, h5, h6, h7, h8, h9, h10⟩

/-- A report at the expression `e` about method `m` of the interface `i` lists the code `x`. -/
def ReportedSmuggled (out : Outcome) (e : NodeId) (i : Option Object) (m x : GoString) : Prop :=
  ∃ codes, ⟨e, i, m, codes⟩ ∈ out.conversions ∧ x ∈ codes

/-- **C31/C34**, for a run and a single code: it is listed in a report exactly if a value is converted to the interface there, that method
of the value's type has the code, and the interface does not declare it.

Partial: as `conversions_exact_partial`. -/
theorem smuggled_iff_partial (h : runVerify P S strict = .ok out) (hS : S.Fair) (ho : Objects P) (hp : Interfaces.Program P.ifaces)
    {calls : CallKind} (hf : Conversions.Fine (P.at_ out.facts) P.conv calls P.top) {e : NodeId} {i : Option Object} {m : GoString}
    (hl : ∀ T S, Conversions.ConvertedTo (P.at_ out.facts) P.conv calls P.top T S e →
      Conversions.MethodSettled (P.at_ out.facts) (seen P out.facts) S m) (x : GoString) :
    ReportedSmuggled out e i m x ↔ ∃ T S ms allowed, Conversions.ConvertedTo (P.at_ out.facts) P.conv calls P.top T S e ∧ S ≠ T ∧
      S ≠ .untypedNil ∧ IsErrorInterface (P.at_ out.facts) T ms ∧ getNamedType T = i ∧ (m, allowed) ∈ ms ∧
      MethodCode (P.at_ out.facts) (seen P out.facts) S m x ∧ x ∉ allowed := by
  constructor
  · rintro ⟨codes, hr, hx⟩
    obtain ⟨T, S', ms, al, h1, h2, h3, h4, h5, h6, -, -, -, h7⟩ := conversions_derivable h hS ho hp hf _ hr
    exact ⟨T, S', ms, al, h1, h2, h3, h4, h5, h6, h7 x hx⟩
  · rintro ⟨T, S', ms, al, h1, h2, h3, h4, rfl, h6, h7, h8⟩
    obtain ⟨s, h⟩ := ran_iff.1 h
    rw [← h.program_eq hS ho hp] at hl h7
    exact Conversions.smuggled_code_reported_partial hS.conv (Ran.declaredOnce ho _) hf ⟨_, _, _, _, _, h.search, h.conv⟩ h1 h2 h3 h4 h6
      (hl T S' h1) h7 h8

/-! ## C24 — silence -/

/-- **C24**, for a run: if nothing is reported in the bodies of `f` and of the functions it may call, and no mismatch for `f`, then every error `f` can return has a declared
code (or none at all; or, for an error constructor, the code given as argument).

Partial: all functions `f` can reach have to be in scope (see `Soundness`). -/
theorem silent_declared_partial (h : runVerify P S strict = .ok out) (hS : S.Fair) (ho : Objects P) (hp : Interfaces.Program P.ifaces)
    (hprint : PrintsAscii P.env.isPrint) {X : Runtime.Extra}
    (hforeign : Runtime.ForeignStores X) (hpromise : Runtime.Promises (P.at_ (during P out.facts)) X) {f : FnId}
    (hsil : ∀ g, Reach (Calls (P.plan (during P out.facts))) f g → reportedIn out g = [])
    (hs : ∀ g, Reach (Calls (P.plan (during P out.facts))) f g → Soundness.InScope (P.at_ (during P out.facts)) X g)
    (hl : CallGraph.Settled (P.plan (during P out.facts)) f) {c : FuncCodes} (hc : Compared P f c) (hm : ∀ text, (f, text) ∉ out.mismatches)
    {arg : GoString} {o : Runtime.Obj} (hy : Runtime.Yields (P.at_ (during P out.facts)) X (.ret f arg) o) {code : GoString}
    (hcode : o.may code) : code = [] ∨ code ∈ c.codes ∨ (c.param ≠ none ∧ code = arg) := by
  have hb := bodies_once h hS ho hp
  have hmm := (mismatches_exact_partial h hS ho hp).1 f hl
  have hctor := exported_constructors h hS ho
  obtain ⟨s, h⟩ := ran_iff.1 h
  have hfd := facts_during h hS ho hp
  rw [← hfd] at hl hy hs hmm hpromise hsil
  have hsil1 : ∀ x, Reach (Calls (P.plan s.facts)) f x → CallGraph.diagnosticsOf s.searched x = [] := by
    intro x hx
    rw [← CallGraph.diagsOf_eq]
    have h0 : ¬ (Search.start : Search FnId Diag).scc.Vis x := by simp [Search.start, Scc.start, Scc.Vis]
    by_cases hv : s.searched.scc.Vis x
    · have e := h.looked_first.diags_new x h0 hv
      have hla : LookedAt P out.facts x := by
        refine (h.vis_final hS ho hp x).1 ((h.looked hS ho hp).vis_iff x |>.2 ?_)
        obtain ⟨f', hf', hr'⟩ := (h.looked_first.plan_congr (plan' := seen P out.facts) fun y hy => by
          rw [← h.seen_eq hS ho hp]; simp [Search.mixed, hy]).vis_iff x |>.1 hv
        exact ⟨f', List.mem_append_left _ hf', hr'⟩
      have e2 := (hb x).1 hla
      rw [hsil x hx] at e2
      have e3 : seen P out.facts x = P.plan s.facts x := by
        rw [← h.seen_eq hS ho hp]; simp [Search.mixed, hv]
      rw [e, ← e3, ← e2]; rfl
    · rw [h.looked_first.diags_not x hv]; rfl
  obtain ⟨hfst, hcodes⟩ := CallGraph.codes_are_least_partial h.search
  have hf : f ∈ s.found.map Prod.fst := by rw [hfst]; exact (h.roots_iff hS ho).2 ⟨c, hc⟩
  obtain ⟨⟨f', C⟩, hC, rfl⟩ := List.mem_map.1 hf
  have key := Soundness.silent_run_sound_partial (env := P.at_ s.facts) (fuel := P.depth) (Nat.le_refl _) hprint hforeign hpromise h.search hsil1
    hs hl hC hy hcode
  rcases key with hk | hk | ⟨hk, rfl⟩
  · exact .inl hk
  · refine .inr (.inl (Classical.byContradiction fun hno => ?_))
    have hcc := hcodes f' C hC hl
    obtain ⟨-, missing, unused, lm, lu, -⟩ := Reports.mismatch_exact (S.claimMatch f') (hS.claimMatch f') C c.codes
    refine hm (Reports.mismatchText missing unused) ((hmm _).2 ⟨c, missing, unused, hc, ⟨lm.1, lm.2.1, fun x => by rw [lm.2.2, hcc]⟩,
      ⟨lu.1, lu.2.1, fun x => by rw [lu.2.2, hcc]⟩, .inl fun he => ?_, rfl⟩)
    have := (lm.2.2 code).2 ⟨hk, hno⟩
    rw [he] at this
    cases this
  · refine .inr (.inr ⟨?_, rfl⟩)
    cases hn : importErrorConstructorFact (P.at_ s.facts) f' with
    | none => exact absurd hn hk
    | some n =>
      unfold importErrorConstructorFact at hn
      split at hn
      · have hn : s.facts.ctor (P.env.funcObj f') = some n := hn
        rw [← (h.out_rest hS ho).1] at hn
        obtain ⟨c', p, hc', hp', -⟩ := (hctor.1 f' (Prepared.kept_sub hc.1) n).1 hn
        have : c' = c := h.compared_unique hS ho hc' hc
        rw [← this, hp']; simp
      · cases hn

end Serum.Props.Run
