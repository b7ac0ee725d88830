import Verif.Props.TypeReports
import Verif.Props.RunExports
import Verif.Props.RunExample

/-! # C52 — reports about error types, for whole runs -/

namespace Serum.Props.TypeReports
open Serum RunSpec CodeFormat CodeExec Serum.TypeReports Serum.Props.ErrorTypes Serum.Props.Run

variable {P : Package} {S : Schedule} {strict : Bool} {out : Outcome}

/-- Every type declared in the package has at most one `Code` method, whose variables are used as Go demands (`CodeExec.Typed`,
`CodeExec.Scoped`). -/
structure CodeMethods (P : Package) : Prop where
  one : ∀ spec ∈ P.specs, ∀ err, WithCode P spec.typ err → (∀ m, ¬ MethodOfType P err b!"Code" m) ∨ ∃ m receiver, TheCode P err m receiver
  typed : ∀ spec ∈ P.specs, ∀ err m receiver, WithCode P spec.typ err → TheCode P err m receiver → Typed P.start m (bodyOf P m)
  scope : ∀ spec ∈ P.specs, ∀ err m receiver, WithCode P spec.typ err → TheCode P err m receiver → Scoped P.start m (bodyOf P m)

/-- What a run reports for one type declaration, where `taken` is the field taken for the code field. -/
inductive Reported (P : Package) (spec : TypeSpec) (taken : Option GoString) : TagDiag → Prop where
  /-- the type has a `Code` method, but not by a declaration -/
  | noMethod {o err} : spec.typ = .named o → WithCode P spec.typ err → P.types.isInterface o = false →
      (∀ m, ¬ MethodOfType P err b!"Code" m) → Reported P spec taken ⟨spec.genDecl, .noCodeMethod⟩
  | problem {o err m receiver x} : spec.typ = .named o → WithCode P spec.typ err → P.types.isInterface o = false →
      TheCode P err m receiver → TypeProblem P.start P.types spec err o m receiver taken (P.decls.pos m) x → Reported P spec taken x

theorem withCode_unique {t err err' : GoType} (h : WithCode P t err) (h' : WithCode P t err') : err = err' := by
  have a := typeToTag_iff (env := P.env).2 h
  have b := typeToTag_iff (env := P.env).2 h'
  rw [a] at b; exact Option.some.inj b

theorem theCode_unique {err : GoType} {m m' : FnId} {r r' : Option Ident} (h : TheCode P err m r) (h' : TheCode P err m' r') :
    m = m' ∧ r = r' := by
  have hm : m = m' := h'.only m h.has
  subst hm
  refine ⟨rfl, ?_⟩
  have key : ∀ x, r = some x ↔ r' = some x := fun x => (h.receiver x).trans (h'.receiver x).symm
  cases r with
  | none =>
    cases r' with
    | none => rfl
    | some x => exact absurd ((key x).2 rfl) (by simp)
  | some x => exact ((key x).1 rfl).symm

/-- **C52**, for a run.  Let `taken` be the field taken for the code field of each declared type.  The reports about types are
exactly those of `Reported`; a type is recorded as error type iff it is no interface, has a declared `Code` method and a code or a
code field; and what is recorded is what `Recorded` says, whether or not something is reported. -/
theorem run_reports (h : runVerify P S strict = .ok out) (hS : S.Fair) (ho : Objects P) (ht : Types P) (hm : CodeMethods P)
    (ascii : PrintsAscii P.env.isPrint) (parsed : ∀ m', Taint.BodyOk (bodyOf P m')) :
    ∃ taken : TypeSpec → Option GoString,
      (∀ spec ∈ P.specs, ∀ err m receiver o, spec.typ = .named o → P.types.isInterface o = false → WithCode P spec.typ err →
        TheCode P err m receiver → TakenField P.start m (bodyOf P m) receiver (taken spec)) ∧
      (∀ x, x ∈ out.tags ↔ ∃ spec ∈ P.specs, Reported P spec (taken spec) x) ∧
      ∀ spec ∈ P.specs, ∀ o, spec.typ = .named o →
        ((∃ et, out.facts.errorType o = some et) ↔ P.types.isInterface o = false ∧ ∃ err m receiver, WithCode P spec.typ err ∧
          TheCode P err m receiver ∧ ¬ NoCodes P.start spec m (taken spec)) ∧
        ∀ et, out.facts.errorType o = some et → ∀ err m receiver, WithCode P spec.typ err → TheCode P err m receiver →
          Recorded P.start P.types spec err o m (taken spec) et := by
  obtain ⟨s, h⟩ := ran_iff.1 h
  obtain ⟨h1, h2, h3⟩ := tag_types h.tag ht.distinct ht.named
  have hw : ∀ (spec : TypeSpec) (err : GoType), typeToTag P.start spec.typ = some err ↔ WithCode P spec.typ err := fun spec err => typeToTag_iff
  have hnamed : ∀ (spec : TypeSpec) o err, spec.typ = .named o → WithCode P spec.typ err → err = .named o ∨ err = .pointer (.named o) := by
    intro spec o err ho hw
    rcases hw with ⟨-, rfl⟩ | ⟨-, -, rfl⟩ <;> rw [ho] <;> simp
  -- one type
  have each : ∀ spec ∈ P.specs, ∃ taken, ∀ o err m receiver fact es, spec.typ = .named o → P.types.isInterface o = false →
      WithCode P spec.typ err → TheCode P err m receiver →
      tagErrorType P.start P.decls P.types P.depth spec err = .ok (fact, es) →
      TakenField P.start m (bodyOf P m) receiver taken ∧
      (∀ x, x ∈ es ↔ TypeProblem P.start P.types spec err o m receiver taken (P.decls.pos m) x) ∧
      (fact = none ↔ NoCodes P.start spec m taken) ∧
      ∀ o' et, fact = some (o', et) → o' = o ∧ Recorded P.start P.types spec err o m taken et := by
    intro spec hs
    by_cases hex : ∃ o err m receiver fact es, spec.typ = .named o ∧ P.types.isInterface o = false ∧
      WithCode P spec.typ err ∧ TheCode P err m receiver ∧
      tagErrorType P.start P.decls P.types P.depth spec err = .ok (fact, es)
    · obtain ⟨o, err, m, receiver, fact, es, k1, k2, k3, k4, k5⟩ := hex
      obtain ⟨taken, g⟩ := reports P.start P.decls P.types P.depth spec err o fact es m receiver k5 (hnamed spec o err k1 k3) k2 k4.model
        ascii parsed (hm.typed spec hs err m receiver k3 k4) (hm.scope spec hs err m receiver k3 k4)
      refine ⟨taken, fun o' err' m' receiver' fact' es' j1 j2 j3 j4 j5 => ?_⟩
      rw [k1] at j1; cases j1
      have := withCode_unique k3 j3; subst this
      obtain ⟨rfl, rfl⟩ := theCode_unique k4 j4
      rw [k5] at j5; cases j5
      exact g
    · exact ⟨none, fun o err m receiver fact es k1 k2 k3 k4 k5 => absurd ⟨o, err, m, receiver, fact, es, k1, k2, k3, k4, k5⟩ hex⟩
  have each' : ∃ taken : TypeSpec → Option GoString, ∀ spec ∈ P.specs, ∀ o err m receiver fact es, spec.typ = .named o →
      P.types.isInterface o = false → WithCode P spec.typ err → TheCode P err m receiver →
      tagErrorType P.start P.decls P.types P.depth spec err = .ok (fact, es) →
      TakenField P.start m (bodyOf P m) receiver (taken spec) ∧
      (∀ x, x ∈ es ↔ TypeProblem P.start P.types spec err o m receiver (taken spec) (P.decls.pos m) x) ∧
      (fact = none ↔ NoCodes P.start spec m (taken spec)) ∧
      ∀ o' et, fact = some (o', et) → o' = o ∧ Recorded P.start P.types spec err o m (taken spec) et := by
    classical
    refine ⟨fun spec => if hs : spec ∈ P.specs then Classical.choose (each spec hs) else none, fun spec hs => ?_⟩
    simp only [hs, dif_pos]
    exact Classical.choose_spec (each spec hs)
  obtain ⟨taken, each⟩ := each'
  -- the tagging of a type with a `Code` method
  have did : ∀ spec ∈ P.specs, ∀ o err, spec.typ = .named o → WithCode P spec.typ err → ∃ fact es,
      tagErrorType P.start P.decls P.types P.depth spec err = .ok (fact, es) ∧
      ((fact = none ∧ s.tagged.errorType o = P.env.facts.errorType o) ∨ ∃ et, fact = some (o, et) ∧ s.tagged.errorType o = some et) := by
    intro spec hs o err k1 k2
    rcases h2 spec hs o k1 with ⟨j1, -⟩ | ⟨err', fact, es, j1, j2, j3⟩
    · rw [(hw spec err).2 k2] at j1; cases j1
    · rw [(hw spec err).2 k2] at j1; cases j1
      exact ⟨fact, es, j2, j3⟩
  refine ⟨taken, fun spec hs err m receiver o k1 k2 k3 k4 => ?_, fun x => ?_, fun spec hs o k1 => ?_⟩
  · obtain ⟨fact, es, j, -⟩ := did spec hs o err k1 k3
    exact (each spec hs o err m receiver fact es k1 k2 k3 k4 j).1
  · rw [h3]
    constructor
    · rintro ⟨spec, hs, err, fact, es, k1, k2, hx⟩
      refine ⟨spec, hs, ?_⟩
      obtain ⟨o, ho'⟩ := ht.named spec hs
      have k1 := (hw spec err).1 k1
      obtain ⟨g1, g2⟩ := other_types P.start P.decls P.types P.depth spec err o (hnamed spec o err ho' k1)
      cases hi : P.types.isInterface o with
      | true => rw [g1 hi] at k2; cases k2; simp at hx
      | false =>
        rcases hm.one spec hs err k1 with hno | ⟨m, receiver, hc⟩
        · rw [g2 hi fun m hm => hno m (codeMethod_iff.1 hm)] at k2; cases k2
          simp only [List.mem_singleton] at hx; subst hx
          exact .noMethod ho' k1 hi hno
        · exact .problem ho' k1 hi hc (((each spec hs o err m receiver fact es ho' hi k1 hc k2).2.1 x).1 hx)
    · rintro ⟨spec, hs, hx⟩
      cases hx with
      | @noMethod o err k1 k2 k3 k4 =>
        obtain ⟨-, g2⟩ := other_types P.start P.decls P.types P.depth spec err o (hnamed spec o err k1 k2)
        exact ⟨spec, hs, err, _, _, (hw spec err).2 k2, g2 k3 (fun m hm => k4 m (codeMethod_iff.1 hm)), by simp⟩
      | @problem o err m receiver x k1 k2 k3 k4 k5 =>
        obtain ⟨fact, es, j, -⟩ := did spec hs o err k1 k2
        exact ⟨spec, hs, err, fact, es, (hw spec err).2 k2, j, ((each spec hs o err m receiver fact es k1 k3 k2 k4 j).2.1 x).2 k5⟩
  · rw [(h.out_rest hS ho).2.1]
    have himp := ht.imported spec hs o k1
    constructor
    · constructor
      · rintro ⟨et, het⟩
        rcases h2 spec hs o k1 with ⟨-, j⟩ | ⟨err, fact, es, j1, j2, j3⟩
        · rw [j, himp] at het; cases het
        · have j1 := (hw spec err).1 j1
          rcases j3 with ⟨rfl, j3⟩ | ⟨et', rfl, j3⟩
          · rw [j3, himp] at het; cases het
          · obtain ⟨g1, g2⟩ := other_types P.start P.decls P.types P.depth spec err o (hnamed spec o err k1 j1)
            cases hi : P.types.isInterface o with
            | true => rw [g1 hi] at j2; cases j2
            | false =>
              refine ⟨rfl, ?_⟩
              rcases hm.one spec hs err j1 with hno | ⟨m, receiver, hc⟩
              · rw [g2 hi fun m hm => hno m (codeMethod_iff.1 hm)] at j2; cases j2
              · refine ⟨err, m, receiver, j1, hc, fun hn => ?_⟩
                have := (each spec hs o err m receiver _ es k1 hi j1 hc j2).2.2.1.2 hn
                cases this
      · rintro ⟨hi, err, m, receiver, j1, hc, hn⟩
        obtain ⟨fact, es, j2, j3⟩ := did spec hs o err k1 j1
        rcases j3 with ⟨rfl, -⟩ | ⟨et, rfl, j3⟩
        · exact absurd ((each spec hs o err m receiver _ es k1 hi j1 hc j2).2.2.1.1 rfl) hn
        · exact ⟨et, j3⟩
    · intro et het err m receiver j1 hc
      obtain ⟨fact, es, j2, j3⟩ := did spec hs o err k1 j1
      rcases j3 with ⟨rfl, j3⟩ | ⟨et', rfl, j3⟩
      · rw [j3, himp] at het; cases het
      · rw [j3] at het; cases het
        have hi : P.types.isInterface o = false := by
          cases hi : P.types.isInterface o with
          | false => rfl
          | true =>
            rw [(other_types P.start P.decls P.types P.depth spec err o (hnamed spec o err k1 j1)).1 hi] at j2; cases j2
        exact ((each spec hs o err m receiver _ es k1 hi j1 hc j2).2.2.2 o et rfl).2

/-! ## Example: the type `Err` of `noisyBody` as a package of its own, with a type `Wrap` that embeds `*Err` -/

def noisyPkg : Package where
  env := { noisyEnv with
    implCode := fun t => t == .pointer (.named 0) || t == .named 1
    funcObj := fun f => 70 + f
    methods := fun _ => [] }
  decls := codeDecls
  types := codeTypes
  funcs := [0]
  specs := [codeSpec, ⟨301, .named 1, some [[]]⟩, ⟨302, .named 2, none⟩]
  ifaces := []
  methodObj := fun _ => 0
  conv := pkg.conv
  top := [.func 0]

def noisyOut : Outcome :=
  match runVerify noisyPkg schedule false with
  | .ok out => out
  | .error _ => ⟨noisyPkg.env.facts, [], [], [], [], [], [], []⟩

theorem noisy_ran : runVerify noisyPkg schedule false = .ok noisyOut := rfl

theorem noisy_tags : noisyOut.tags =
    [⟨2, .notConstantOrField⟩, ⟨9, .secondField b!"Msg" b!"Nope"⟩, ⟨13, .badConstant .format⟩, ⟨0, .notField b!"Nope"⟩, ⟨300, .noCodes 0⟩, ⟨301, .noCodeMethod⟩] := rfl

theorem noisy_objects : Objects noisyPkg where
  funcs := by decide
  distinct := fun f _ g _ h => Nat.add_left_cancel (n := 70) h
  methods := fun d hd => by simp [noisyPkg] at hd
  apart := fun _ _ d hd => by simp [noisyPkg] at hd
  imported := fun _ _ => ⟨rfl, rfl⟩
  importedMethods := fun d hd => by simp [noisyPkg] at hd
  interfaces := fun d hd => by simp [noisyPkg] at hd
  importedInterfaces := fun d hd => by simp [noisyPkg] at hd
  importedTables := fun o ms h => by cases h

theorem noisy_types : Types noisyPkg where
  named := by
    intro s hs
    simp only [noisyPkg, List.mem_cons, List.not_mem_nil, or_false] at hs
    rcases hs with rfl | rfl | rfl <;> exact ⟨_, rfl⟩
  distinct := by decide
  imported := fun _ _ _ _ => rfl

theorem noisy_code {m : FnId} : MethodOfType noisyPkg (.pointer (.named 0)) b!"Code" m ↔ m = 0 :=
  ⟨fun h => List.mem_singleton.1 h.1, fun h => by subst h; exact ⟨List.mem_singleton.2 rfl, by simp [noisyPkg, codeDecls], rfl, .inl rfl⟩⟩

theorem noisy_start {v : ObjId} : ¬ StrVar noisyPkg.start 0 noisyBody v := by
  intro h
  induction h with
  | bare h _ _ => rcases noisy_returns h with h | h | h | h <;> cases h
  | ret h hv =>
    obtain ⟨-, i, hi, ho⟩ := hv
    rcases noisy_returns h with h | h | h | h <;> cases h <;> simp [Node.unparen] at hi
  | source _ _ _ ih => exact ih

theorem noisy_methods : CodeMethods noisyPkg := by
  have hspec : ∀ spec ∈ noisyPkg.specs, ∀ err, WithCode noisyPkg spec.typ err → err = .pointer (.named 0) ∨ err = .named 1 := by
    intro spec hs err hw
    simp only [noisyPkg, List.mem_cons, List.not_mem_nil, or_false] at hs
    rcases hs with rfl | rfl | rfl <;> rcases hw with ⟨h1, rfl⟩ | ⟨h1, h2, rfl⟩ <;> simp_all [noisyPkg, codeSpec]
  have only : ∀ err m receiver, (err = .pointer (.named 0) ∨ err = .named 1) → TheCode noisyPkg err m receiver → m = 0 :=
    fun err m receiver _ h => List.mem_singleton.1 h.has.1
  refine ⟨fun spec hs err hw => ?_, fun spec hs err m receiver hw hc => ?_, fun spec hs err m receiver hw hc => ?_⟩
  · rcases hspec spec hs err hw with rfl | rfl
    · exact .inr ⟨0, some ⟨200, b!"e", some 1⟩, noisy_code.2 rfl, fun m' h => noisy_code.1 h,
        fun r => ⟨fun h => by cases h; rfl, fun h => by cases h; rfl⟩⟩
    · refine .inl fun m h => ?_
      rcases h.2.2.2 with h | h <;> cases h
  · have := only err m receiver (hspec spec hs err hw) hc
    subst this
    show Typed noisyPkg.start 0 noisyBody
    refine ⟨fun e i v he hi _ _ => ?_, fun i v hi => ?_⟩
    · rcases he with he | ⟨v, hv, -⟩
      · rcases noisy_returns he with h | h | h | h <;> cases h <;> simp [Node.unparen] at hi
      · exact absurd hv noisy_start
    · rcases hi with ⟨e, he | ⟨v, hv, -⟩, -, hi⟩ | ⟨h, -⟩
      · rcases noisy_returns he with h | h | h | h <;> cases h <;> simp [Node.unparen] at hi
      · exact absurd hv noisy_start
      · rcases noisy_returns h with h | h | h | h <;> cases h
  · have := only err m receiver (hspec spec hs err hw) hc
    subst this
    exact ⟨(Tracking.scope_of_noLits noisyPkg.start noisyBody noisy_noLit).1,
      fun i _ => (Tracking.scope_of_noLits noisyPkg.start noisyBody noisy_noLit).2 i⟩

/-- All hypotheses of `run_reports` hold for this package, so that these are all reports that are due. -/
example : ∃ taken : TypeSpec → Option GoString, ∀ x,
    x ∈ [⟨2, .notConstantOrField⟩, ⟨9, .secondField b!"Msg" b!"Nope"⟩, ⟨13, .badConstant .format⟩, ⟨0, .notField b!"Nope"⟩, ⟨300, .noCodes 0⟩, ⟨301, .noCodeMethod⟩] ↔
      ∃ spec ∈ noisyPkg.specs, Reported noisyPkg spec (taken spec) x := by
  obtain ⟨taken, -, h2, -⟩ := run_reports noisy_ran schedule_fair noisy_objects noisy_types noisy_methods (fun _ _ => rfl)
    (fun m => by
      match m with
      | 0 =>
        show Taint.BodyOk noisyBody
        refine ⟨fun id fn type b ho => ?_, fun id lhs rhs ho _ => ?_⟩
        · rw [Occurs, ← mem_inspectList] at ho
          simp [noisyBody, Node.inspectList, Node.inspect, Node.children] at ho
        · rw [Occurs, ← mem_inspectList] at ho
          simp [noisyBody, Node.inspectList, Node.inspect, Node.children] at ho
      | m + 1 =>
        have : bodyOf noisyPkg (m + 1) = [] := by simp [bodyOf, Env.func, noisyPkg, noisyEnv, codeEnv]
        rw [this]
        exact ⟨fun _ _ _ _ ⟨_, h, _⟩ => by simp at h, fun _ _ _ ⟨_, h, _⟩ => by simp at h⟩)
  exact ⟨taken, fun x => by rw [← noisy_tags]; exact h2 x⟩

end Serum.Props.TypeReports
