import Verif.RunTypes
import Verif.Props.Run

/-!
# Whole runs over a package: what is recorded for types and interfaces, and the remaining diagnostics
-/

namespace Serum.Props.Run
open Serum RunSpec CodeFormat CodeExec

variable {P : Package} {S : Schedule} {strict : Bool} {out : Outcome}

/-! ## C29, C38 — error types -/

/-- The statements of a function; none for a declaration without body. -/
abbrev bodyOf (P : Package) (f : FnId) : List Node := (P.env.func f).body.getD []

/-- Different type declarations declare different named types, about which nothing has been imported.  (Not the case for aliases:
`type A = Err`.) -/
structure Types (P : Package) : Prop where
  named : ∀ spec ∈ P.specs, ∃ o, spec.typ = .named o
  distinct : (P.specs.map TypeSpec.typ).Nodup
  imported : ∀ spec ∈ P.specs, ∀ o, spec.typ = .named o → P.env.facts.errorType o = none

/-- `err` is the type whose `Code` method counts: the declared type itself if it has one, otherwise the pointer to it. -/
def WithCode (P : Package) (t err : GoType) : Prop :=
  (P.env.implCode t = true ∧ err = t) ∨ (P.env.implCode t = false ∧ P.env.implCode (.pointer t) = true ∧ err = .pointer t)

/-- `m` is a method of this name, declared in the package for the type `err` or the type it points to. -/
def MethodOfType (P : Package) (err : GoType) (name : GoString) (m : FnId) : Prop :=
  m ∈ P.funcs ∧ P.decls.recv m ≠ none ∧ P.decls.name m = name ∧ (P.types.recvType m = err ∨ err = .pointer (P.types.recvType m))

theorem mem_methods {name : GoString} {m : FnId} :
    m ∈ P.start.methods name ↔ m ∈ P.funcs ∧ P.decls.recv m ≠ none ∧ P.decls.name m = name := by
  have : P.start.methods name = P.funcs.filter fun f => (P.decls.recv f).isSome && (P.decls.name f == name) :=
    collectFunctions_methods P.decls P.funcs name
  rw [this, List.mem_filter, Bool.and_eq_true, beq_iff_eq, Option.isSome_iff_ne_none]

theorem codeMethod_iff {err : GoType} {m : FnId} : ErrorTypes.CodeMethod P.start P.types err m ↔ MethodOfType P err b!"Code" m := by
  unfold ErrorTypes.CodeMethod MethodOfType
  rw [mem_methods, and_assoc, and_assoc]

/-- `m` is the `Code` method of the type, and `receiver` its receiver variable, if it is named. -/
structure TheCode (P : Package) (err : GoType) (m : FnId) (receiver : Option Ident) : Prop where
  has : MethodOfType P err b!"Code" m
  only : ∀ m', MethodOfType P err b!"Code" m' → m' = m
  receiver : ∀ r, receiver = some r ↔ P.types.recvNames m = [r]

theorem TheCode.model {err : GoType} {m : FnId} {receiver : Option Ident} (h : TheCode P err m receiver) :
    ErrorTypes.TheCodeMethod P.start P.types err m receiver :=
  ⟨codeMethod_iff.2 h.has, fun m' hm => h.only m' (codeMethod_iff.1 hm), h.receiver⟩

/-- The constant `c` is assigned to the field `name` of the receiver by a method of the type. -/
def AssignedInMethod (P : Package) (err : GoType) (o : Object) (name c : GoString) : Prop :=
  ∃ m r v e, (∃ n ∈ P.types.methodNames o, MethodOfType P err n m) ∧ P.types.recvNames m = [r] ∧ r.obj = some v ∧
    Flow.FieldAssigned (bodyOf P m) v name e ∧ P.env.value e.id = some (.str c)

/-- The tagging of one type, in a run that reports nothing about types. -/
theorem tagged_type (h : runVerify P S strict = .ok out) (hS : S.Fair) (ho : Objects P) (ht : Types P) (silent : out.tags = []) :
    (∀ o, (∀ spec ∈ P.specs, spec.typ ≠ .named o) → out.facts.errorType o = P.env.facts.errorType o) ∧
    ∀ spec ∈ P.specs, ∀ o, spec.typ = .named o →
      ((∃ et, out.facts.errorType o = some et) ↔ (∃ err, WithCode P spec.typ err) ∧ P.types.isInterface o = false) ∧
      ∀ et, out.facts.errorType o = some et → ∃ err, WithCode P spec.typ err ∧
        tagErrorType P.start P.decls P.types P.depth spec err = .ok (some (o, et), []) := by
  obtain ⟨s, h⟩ := ran_iff.1 h
  rw [(h.out_rest hS ho).2.1]
  obtain ⟨h1, h2, h3⟩ := tag_types h.tag ht.distinct ht.named
  rw [silent] at h3
  refine ⟨h1, fun spec hs o hso => ?_⟩
  have himp := ht.imported spec hs o hso
  have hw : ∀ err, typeToTag P.start spec.typ = some err ↔ WithCode P spec.typ err := fun err => typeToTag_iff
  rcases h2 spec hs o hso with ⟨k1, k2⟩ | ⟨err, fact, es, k1, k2, k3⟩
  · rw [k2, himp]
    refine ⟨⟨fun ⟨et, h⟩ => (nomatch h), fun ⟨⟨err, h⟩, _⟩ => ?_⟩, fun et h => (nomatch h)⟩
    rw [(hw err).2 h] at k1; cases k1
  · have hes : es = [] := List.eq_nil_iff_forall_not_mem.2 fun x hx => by
      have := (h3 x).2 ⟨spec, hs, err, fact, es, k1, k2, hx⟩; cases this
    subst hes
    have hnt : getNamedType err = some o := by
      rcases (hw err).1 k1 with ⟨-, rfl⟩ | ⟨-, -, rfl⟩ <;> rw [hso] <;> rfl
    rcases k3 with ⟨rfl, k3⟩ | ⟨et, rfl, k3⟩
    · rw [k3, himp]
      refine ⟨⟨fun ⟨et, h⟩ => (nomatch h), fun ⟨_, hi⟩ => ?_⟩, fun et h => (nomatch h)⟩
      exfalso
      unfold tagErrorType at k2
      simp only [hnt, hi, Bool.false_eq_true, if_false] at k2
      split at k2
      · cases k2
      · simp only [bind, Except.bind, pure, Except.pure] at k2
        split at k2
        · cases k2
        · split at k2
          · simp at k2
          · split at k2
            · cases k2
            · cases k2
    · rw [k3]
      refine ⟨⟨fun _ => ⟨⟨err, (hw err).1 k1⟩, ?_⟩, fun _ => ⟨et, rfl⟩⟩, fun et' h => ?_⟩
      · unfold tagErrorType at k2
        simp only [hnt] at k2
        split at k2
        · cases k2
        · rename_i hi; simpa using hi
      · cases h; exact ⟨err, (hw err).1 k1, k2⟩

/-- **C29/C38**, for a run: if nothing is reported about types, the package's own types recorded as error types are exactly those
with a `Code` method (declared for the type or the pointer to it) which are not interfaces.  Recorded are exactly the non-empty
constants that the `Code` method may return, and those its methods assign to the recorded field of their receiver; all are
well-formed.  The recorded field is exactly the one the `Code` method may return, with its position.  What has been imported about
other types stays.

Partial: as for `ErrorTypes.recorded_exact_partial`. -/
theorem exported_error_types_partial (h : runVerify P S strict = .ok out) (hS : S.Fair) (ho : Objects P) (ht : Types P)
    (silent : out.tags = []) :
    (∀ o, (∀ spec ∈ P.specs, spec.typ ≠ .named o) → out.facts.errorType o = P.env.facts.errorType o) ∧
    ∀ spec ∈ P.specs, ∀ o, spec.typ = .named o →
      ((∃ et, out.facts.errorType o = some et) ↔ (∃ err, WithCode P spec.typ err) ∧ P.types.isInterface o = false) ∧
      ∀ et, out.facts.errorType o = some et → ∀ err m receiver, WithCode P spec.typ err → TheCode P err m receiver →
        PrintsAscii P.env.isPrint → (∀ m', Taint.BodyOk (bodyOf P m')) →
        Typed P.start m (bodyOf P m) → Scoped P.start m (bodyOf P m) →
        (∀ c, c ∈ et.codes ↔ c ≠ [] ∧
          ((∃ e, StrExpr P.start m (bodyOf P m) e ∧ P.env.value e.unparen.id = some (.str c)) ∨
           ∃ fd, et.field = some fd ∧ AssignedInMethod P err o fd.name c)) ∧
        (∀ c ∈ et.codes, WellFormed c) ∧
        (∀ name, (∃ p, et.field = some ⟨name, p⟩) ↔ ∃ e, StrExpr P.start m (bodyOf P m) e ∧
          P.env.value e.unparen.id = none ∧ FieldOfReceiver receiver e.unparen name) ∧
        (∀ fd, et.field = some fd → ∃ gs, spec.fields = some gs ∧
          (gs.flatMap fun ns => if ns = [] then [none] else ns.map some)[fd.position]? = some (some fd.name)) := by
  obtain ⟨h1, h2⟩ := tagged_type h hS ho ht silent
  refine ⟨h1, fun spec hs o hso => ⟨(h2 spec hs o hso).1, fun et het err m receiver hw hm ascii parsed typed scope => ?_⟩⟩
  obtain ⟨err', hw', htag⟩ := (h2 spec hs o hso).2 et het
  have herr : err' = err := by
    have a := typeToTag_iff (env := P.env).2 hw
    have b := typeToTag_iff (env := P.env).2 hw'
    rw [a] at b; exact (Option.some.inj b).symm
  subst herr
  obtain ⟨g1, g2, g3, g4⟩ := ErrorTypes.recorded_exact_partial P.start P.decls P.types P.depth spec err' o et m receiver htag hm.model
    ascii parsed typed scope
  refine ⟨fun c => ?_, g2, g3, g4⟩
  rw [g1 c]
  refine and_congr Iff.rfl (or_congr Iff.rfl ?_)
  constructor
  · rintro ⟨fd, m', v, e, k1, ⟨⟨n, k2, k3⟩, k4, r, k5, k6⟩, k7, k8⟩
    obtain ⟨a, b, c⟩ := mem_methods.1 k3
    exact ⟨fd, k1, m', r, v, e, ⟨n, k2, a, b, c, k4⟩, k5, k6, k7, k8⟩
  · rintro ⟨fd, k1, m', r, v, e, ⟨n, k2, a, b, c, k4⟩, k5, k6, k7, k8⟩
    exact ⟨fd, m', v, e, k1, ⟨⟨n, k2, mem_methods.2 ⟨a, b, c⟩⟩, k4, r, k5, k6⟩, k7, k8⟩

/-- **C29**, for a run: if nothing is reported about types, every string that the `Code` method of a recorded error type can return
is empty, one of the recorded codes, or the value the recorded field of the receiver had at some point of the execution.

Partial: as for `ErrorTypes.code_method_covered_partial`. -/
theorem code_methods_covered_partial (h : runVerify P S strict = .ok out) (hS : S.Fair) (ho : Objects P) (ht : Types P)
    (silent : out.tags = []) (ascii : PrintsAscii P.env.isPrint) {spec : TypeSpec} (hs : spec ∈ P.specs) {o : Object}
    (hso : spec.typ = .named o) {et : ErrorType} (het : out.facts.errorType o = some et) {err : GoType} (hw : WithCode P spec.typ err)
    {m : FnId} {receiver : Option Ident} (hm : TheCode P err m receiver) {extra : Extra}
    (supported : Supported P.start extra m (bodyOf P m) receiver)
    (typed : Typed P.start m (bodyOf P m)) (scope : Scoped P.start m (bodyOf P m))
    {σ : State} {τ : List State} (run : Execution P.start extra m (bodyOf P m) receiver (σ :: τ))
    {c : GoString} (result : Result P.start extra m (bodyOf P m) receiver σ c) :
    c = [] ∨ c ∈ et.codes ∨ ∃ fd σ', et.field = some fd ∧ σ' ∈ σ :: τ ∧ c = σ'.field fd.name := by
  obtain ⟨err', hw', htag⟩ := ((tagged_type h hS ho ht silent).2 spec hs o hso).2 et het
  have herr : err' = err := by
    have a := typeToTag_iff (env := P.env).2 hw
    have b := typeToTag_iff (env := P.env).2 hw'
    rw [a] at b; exact (Option.some.inj b).symm
  subst herr
  exact ErrorTypes.code_method_covered_partial P.start P.decls P.types P.depth spec err' o et extra m receiver htag hm.model ascii supported
    typed scope σ τ run c result

/-! ## C33, C38 — interfaces -/

theorem _root_.Serum.Prepared.interfaces_exact_partial {s : Stages} (h : Prepared P S strict s out) (hS : S.Fair) (ho : Objects P) (hp : Interfaces.Program P.ifaces) :
    (∀ d ∈ P.ifaces, ((∃ ms, out.facts.interface d.obj = some ms) ↔ ∃ m C, IfaceSpec.Has P.env P.ifaces d m C) ∧
      ∀ ms, out.facts.interface d.obj = some ms → (ms.map Prod.fst).Nodup ∧
        ∀ m C, (m, C) ∈ ms ↔ IfaceSpec.Takes P.env P.ifaces d m C) ∧
    (∀ o, (∀ d ∈ P.ifaces, d.obj ≠ o) → out.facts.interface o = P.env.facts.interface o) := by
  obtain ⟨h1, h2⟩ := h.interfaces_partial hS ho hp
  refine ⟨fun d hd => ⟨(h1 d hd).1, fun ms hms => ⟨((h1 d hd).2 ms hms).1, fun m C => ?_⟩⟩, h2⟩
  rw [(h.out_rest hS ho).2.2.1, (h.out_interface hS ho hp).1 d hd, Option.map_eq_some_iff] at hms
  obtain ⟨i, hi, rfl⟩ := hms
  obtain ⟨-, hr⟩ := Interfaces.recorded_exact_partial (h.iface_fair hS ho) hp hS.ifaceNames h.find hd
  obtain ⟨-, -, hr, -⟩ := hr i hi
  rw [← h.takes_iff, ← hr]
  have hfin := (Interfaces.finished (h.iface_fair hS ho) hp hS.ifaceNames h.find).1 d hd
  rw [hi] at hfin
  constructor
  · intro hm
    obtain ⟨⟨m', em⟩, hme, he⟩ := List.mem_map.1 hm
    simp only [Prod.mk.injEq] at he
    obtain ⟨rfl, rfl⟩ := he
    exact ⟨em, Table.get_of_mem hfin.holds.nodup hme, rfl⟩
  · rintro ⟨em, hm, rfl⟩
    exact List.mem_map.2 ⟨_, Table.mem_of_get hm, rfl⟩

/-- **C33/C38**, for a run: an interface of the package is recorded exactly if it has error methods of its own or through embedding;
the record has exactly one entry for each of them, with the codes of its own declaration, or else those recorded for the first
embedded interface having the method.  What has been imported about other interfaces stays.

Partial: interfaces of the package are found by their names (`Interfaces.Program`). -/
theorem interfaces_exact_partial (h : runVerify P S strict = .ok out) (hS : S.Fair) (ho : Objects P) (hp : Interfaces.Program P.ifaces) :
    (∀ d ∈ P.ifaces, ((∃ ms, out.facts.interface d.obj = some ms) ↔ ∃ m C, IfaceSpec.Has P.env P.ifaces d m C) ∧
      ∀ ms, out.facts.interface d.obj = some ms → (ms.map Prod.fst).Nodup ∧
        ∀ m C, (m, C) ∈ ms ↔ IfaceSpec.Takes P.env P.ifaces d m C) ∧
    (∀ o, (∀ d ∈ P.ifaces, d.obj ≠ o) → out.facts.interface o = P.env.facts.interface o) := by
  obtain ⟨s, h⟩ := ran_iff.1 h
  exact h.toPrepared.interfaces_exact_partial hS ho hp

/-- **C33/C36**, for a run: the diagnostics about interfaces are exactly these: where an interface is embedded, for each method whose
recorded codes differ from those of the embedding interface and the interfaces embedded before, listing the differences; and
for each method that cannot be recorded. -/
theorem interface_reports_exact_partial (h : runVerify P S strict = .ok out) (hS : S.Fair) (ho : Objects P)
    (hp : Interfaces.Program P.ifaces) (x : IfaceDiag) :
    x ∈ out.ifaces ↔ ∃ d ∈ P.ifaces, IfaceSpec.ClashIn P.env P.ifaces d x ∨
      ∃ im, .method im ∈ d.elements ∧ IfaceSpec.Unrecordable P.env P.decls.implCause d.typ im x := by
  obtain ⟨s, h⟩ := ran_iff.1 h
  by_cases hx : ∃ m t, x.msg = .incompatible m t
  · rw [Interfaces.mismatches_exact_partial (h.iface_fair hS ho) hp hS.ifaceNames h.find x hx]
    constructor
    · rintro ⟨d, hd, hc⟩; exact ⟨d, hd, .inl (h.clash_iff.1 hc)⟩
    · rintro ⟨d, hd, hc | ⟨im, -, hu⟩⟩
      · exact ⟨d, hd, h.clash_iff.2 hc⟩
      · exfalso
        obtain ⟨m, t, hx⟩ := hx
        rcases hu with ⟨-, _, _, -, -, -, rfl⟩ | ⟨-, ⟨_, -, rfl⟩ | ⟨_, -, ⟨-, rfl⟩ | ⟨-, -, -, -, rfl⟩⟩⟩ <;> cases hx
  · rw [Interfaces.unrecordable_exact h.find x hx]
    constructor
    · rintro ⟨d, hd, im, him, hu⟩; exact ⟨d, hd, .inr ⟨im, him, hu⟩⟩
    · rintro ⟨d, hd, ⟨pre, e, post, -, m, S, T, mi, un, -, -, -, -, -, rfl⟩ | ⟨im, him, hu⟩⟩
      · exact absurd ⟨_, _, rfl⟩ hx
      · exact ⟨d, hd, im, him, hu⟩

/-- **C33/C36**, for a run: each incompatibility is reported as often as there is an embedded interface it describes. -/
theorem interface_reports_counted_partial (h : runVerify P S strict = .ok out) (hS : S.Fair) (ho : Objects P)
    (hp : Interfaces.Program P.ifaces) (x : IfaceDiag) (hx : ∃ m t, x.msg = .incompatible m t) :
    out.ifaces.count x = (P.ifaces.map fun d => IfaceSpec.clashes P.env P.ifaces d x).sum := by
  obtain ⟨s, h⟩ := ran_iff.1 h
  rw [Interfaces.mismatches_counted_partial (h.iface_fair hS ho) hp hS.ifaceNames h.find x hx]
  refine congrArg List.sum (List.map_congr_left fun d _ => ?_)
  exact clashes_congr (env := P.at_ s.tagged) (env' := P.env) rfl rfl (sameImports rfl h.tagged_rest.2.2)

/-! ## C35 — declarations -/

/-- `x` is the objection to the declaration of `f`: its doc comment is malformed; or it names an error code parameter that does not
exist or is not a string; or, with `-strict`, nothing is declared for an exported function that is not a `Cause` method. -/
def Objection (P : Package) (strict : Bool) (f : FnId) (x : ClaimDiag) : Prop :=
  (∃ e, findErrorDocs (P.decls.doc f) = .error e ∧ x = ⟨P.decls.pos f, .oddDocstring (P.decls.name f) e⟩) ∨
  ∃ r, findErrorDocs (P.decls.doc f) = .ok r ∧
    ((r.param ≠ [] ∧ (∀ i ∈ paramNames (P.env.func f).type.params, i.name ≠ r.param) ∧ x = ⟨P.decls.pos f, .paramNotFound r.param⟩) ∨
     (r.param ≠ [] ∧ ∃ pre i post, paramNames (P.env.func f).type.params = pre ++ i :: post ∧ i.name = r.param ∧
        (∀ j ∈ pre, j.name ≠ r.param) ∧ P.env.typeOf i.id ≠ .string ∧ x = ⟨i.id, .paramNotString r.param⟩) ∨
     (r.param = [] ∧ r.codes = [] ∧ r.none = false ∧ strict = true ∧ P.decls.exported f = true ∧
        (∀ t, P.decls.recv f = some t → P.decls.name f = b!"Cause" → P.decls.implCause (P.env.typeOf t) = false) ∧
        x = ⟨P.decls.pos f, .exportedUndeclared (P.decls.name f)⟩))

theorem claimOf_reports {facts : Facts} {f : FnId} {x : ClaimDiag} :
    x ∈ (claimOf (P.at_ facts) P.decls strict f).2 ↔ Objection P strict f x := by
  unfold claimOf Objection
  cases hd : findErrorDocs (P.decls.doc f) with
  | error e => simp
  | ok r =>
    have hcause : isCauseMethod (P.at_ facts) P.decls f = false ↔
        (∀ t, P.decls.recv f = some t → P.decls.name f = b!"Cause" → P.decls.implCause (P.env.typeOf t) = false) := by
      unfold isCauseMethod
      cases hr : P.decls.recv f with
      | none => simp
      | some t =>
        simp only [Option.some.injEq, forall_eq', Bool.and_eq_false_iff, beq_eq_false_iff_ne]
        constructor
        · rintro (h | h) hn
          · exact h
          · exact absurd hn h
        · intro h
          by_cases hn : P.decls.name f = b!"Cause"
          · exact .inl (h hn)
          · exact .inr hn
    rw [← hcause]
    simp only [reduceCtorEq, false_and, exists_false, false_or, Except.ok.injEq, exists_eq_left']
    by_cases hp : r.param = []
    · simp only [findErrorCodeParamIdent, hp, if_true, ne_eq, not_true_eq_false, false_and, false_or, true_and, and_true, List.nil_append]
      by_cases hc : r.codes.length = 0 ∧ r.none = false
      · have hc1 : r.codes = [] := List.length_eq_zero_iff.1 hc.1
        cases hm : isCauseMethod (P.at_ facts) P.decls f <;> cases strict <;> cases he : P.decls.exported f <;> simp [hc1, hc.2]
      · have : ¬ (r.codes = [] ∧ r.none = false) := fun ⟨a, b⟩ => hc ⟨by simp [a], b⟩
        simp only [hc, if_false, List.not_mem_nil, false_iff]
        rintro ⟨a, b, -⟩; exact this ⟨a, b⟩
    · simp only [findErrorCodeParamIdent, hp, if_false, ne_eq, not_false_eq_true, true_and, false_and, or_false]
      have hfn : (P.at_ facts).func f = P.env.func f := rfl
      rw [hfn]
      cases hf : findParamIn r.param 0 (P.env.func f).type.params with
      | none =>
        have := findParamIn_none.1 hf
        simp only [List.mem_singleton]
        constructor
        · intro hx; exact .inl ⟨this, hx⟩
        · rintro (⟨-, hx⟩ | ⟨pre, i, post, h1, h2, -⟩)
          · exact hx
          · exact absurd h2 (this i (by rw [h1]; simp))
      | some p =>
        obtain ⟨pre', post', g1, g2, g3, g4⟩ := findParamIn_some hf
        have huniq : ∀ pre i post, paramNames (P.env.func f).type.params = pre ++ i :: post → i.name = r.param →
            (∀ j ∈ pre, j.name ≠ r.param) → i = p.ident := by
          intro pre i post h1 h2 h3
          rw [g1] at h1
          rcases List.append_eq_append_iff.1 h1 with ⟨a, ha, hb⟩ | ⟨a, ha, hb⟩
          · cases a with
            | nil => simp only [List.nil_append, List.cons.injEq] at hb; exact hb.1.symm
            | cons x a =>
              simp only [List.cons_append, List.cons.injEq] at hb
              exact absurd g3 (h3 p.ident (by rw [ha, hb.1]; simp))
          · cases a with
            | nil => simp only [List.nil_append, List.cons.injEq] at hb; exact hb.1
            | cons x a =>
              simp only [List.cons_append, List.cons.injEq] at hb
              exact absurd h2 (g4 i (by rw [ha, hb.1]; simp))
        have hty : (P.at_ facts).typeOf p.ident.id = P.env.typeOf p.ident.id := rfl
        simp only [hty]
        by_cases hs : P.env.typeOf p.ident.id = .string
        · simp only [hs, if_true, reduceCtorEq, and_false, if_false, List.not_mem_nil, false_iff]
          rintro (⟨h1, -⟩ | ⟨pre, i, post, h1, h2, h3, h4, -⟩)
          · exact h1 p.ident (by rw [g1]; simp) g3
          · rw [huniq pre i post h1 h2 h3] at h4; exact h4 hs
        · simp only [hs, if_false, List.mem_singleton]
          constructor
          · rintro rfl; exact .inr ⟨pre', p.ident, post', g1, g3, g4, hs, rfl⟩
          · rintro (⟨h1, -⟩ | ⟨pre, i, post, h1, h2, h3, -, rfl⟩)
            · exact absurd g3 (h1 p.ident (by rw [g1]; simp))
            · rw [huniq pre i post h1 h2 h3]

/-- At most one objection per function. -/
theorem claimOf_length {facts : Facts} {f : FnId} : (claimOf (P.at_ facts) P.decls strict f).2.length ≤ 1 := by
  have hp : ∀ name, (findErrorCodeParamIdent (P.at_ facts) ((P.at_ facts).func f).type (P.decls.pos f) name).2.length ≤ 1 ∧
      ((findErrorCodeParamIdent (P.at_ facts) ((P.at_ facts).func f).type (P.decls.pos f) name).1 ≠ none →
        (findErrorCodeParamIdent (P.at_ facts) ((P.at_ facts).func f).type (P.decls.pos f) name).2 = []) := by
    intro name
    unfold findErrorCodeParamIdent
    repeat' split
    all_goals simp
  unfold claimOf
  split
  · simp
  · rename_i r hr
    split
    · rename_i ds hx
      have := (hp r.param).1; rw [hx] at this; exact this
    · rename_i ds param hx
      have := (hp r.param).2; rw [hx] at this
      have h0 := this (by simp)
      simp only at h0
      subst h0
      split
      · split
        · simp
        · simp only [List.nil_append]; split <;> simp
      · simp

theorem claims_flatMap {env : Env} {d : Decls} : ∀ fs : List FnId,
    (findClaimedErrorCodes env d strict fs).2 = fs.flatMap fun f => (claimOf env d strict f).2
  | [] => rfl
  | f :: fs => by simp only [findClaimedErrorCodes, List.flatMap_cons, claims_flatMap fs]

/-- **C35/C36**, for a run: the diagnostics about declarations are exactly the objections to the declarations of the error-returning
functions, at most one for each. -/
theorem declaration_reports_exact (h : runVerify P S strict = .ok out) (hS : S.Fair) (hn : P.funcs.Nodup) :
    (∀ x, x ∈ out.claims ↔ ∃ f, Kept P f ∧ ReturnsError P f ∧ Objection P strict f x) ∧
    ∃ fs : List FnId, fs.Nodup ∧ (∀ f, f ∈ fs ↔ Kept P f ∧ ReturnsError P f) ∧
      ∃ each : FnId → Option ClaimDiag, (∀ f x, each f = some x ↔ Objection P strict f x) ∧ out.claims = fs.filterMap each := by
  obtain ⟨s, h⟩ := ran_iff.1 h
  have hc : out.claims = s.funcs.flatMap fun f => (claimOf (P.at_ s.collected) P.decls strict f).2 := by
    rw [← claims_flatMap, h.claims]
  refine ⟨fun x => ?_, s.funcs, h.funcs_nodup hS hn, fun f => h.funcs_iff hS hn,
    fun f => (claimOf (P.at_ s.collected) P.decls strict f).2.head?, fun f x => ?_, ?_⟩
  · rw [hc, List.mem_flatMap]
    constructor
    · rintro ⟨f, hf, hx⟩
      exact ⟨f, ((h.funcs_iff hS hn).1 hf).1, ((h.funcs_iff hS hn).1 hf).2, claimOf_reports.1 hx⟩
    · rintro ⟨f, h1, h2, hx⟩
      exact ⟨f, (h.funcs_iff hS hn).2 ⟨h1, h2⟩, claimOf_reports.2 hx⟩
  · have hlen := claimOf_length (P := P) (facts := s.collected) (strict := strict) (f := f)
    rw [← claimOf_reports (facts := s.collected)]
    revert hlen
    cases hl : (claimOf (P.at_ s.collected) P.decls strict f).2 with
    | nil => simp [hl]
    | cons a l =>
      cases l with
      | nil => intro _; simp [hl, eq_comm]
      | cons b l => intro hlen; simp at hlen
  · rw [hc]
    generalize s.funcs = fs
    induction fs with
    | nil => rfl
    | cons f fs ih =>
      have hlen := claimOf_length (P := P) (facts := s.collected) (strict := strict) (f := f)
      rw [List.flatMap_cons, ih]
      revert hlen
      cases hl : (claimOf (P.at_ s.collected) P.decls strict f).2 with
      | nil => intro _; simp [hl]
      | cons a l =>
        cases l with
        | nil => intro _; simp [hl]
        | cons b l => intro hlen; simp at hlen

end Serum.Props.Run
