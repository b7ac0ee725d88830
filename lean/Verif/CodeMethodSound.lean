import Verif.ErrorTypesLemmas
import Verif.Props.Extract

/-! # A silent look at a `Code` method covers all its executions -/

namespace Serum
namespace CodeMethod
open Flow CodeExec CodeFormat

variable {env : Env} {x : Extra} {f : FnId} {body : List Node} {receiver : Option Ident} {fuel : Nat}

theorem receiverField_iff {e : Node} {name : GoString} :
    (∃ sel, receiverField receiver e = some sel ∧ sel.name = name) ↔ FieldOfReceiver receiver e name := by
  unfold FieldOfReceiver
  constructor
  · rintro ⟨sel, h, hn⟩
    unfold receiverField at h
    split at h
    · rename_i id y s r
      split at h
      · rename_i i hi
        split at h
        · cases h; exact ⟨id, y, _, r, i, rfl, rfl, hi, by assumption, hn⟩
        · cases h
      · cases h
    · cases h
  · rintro ⟨id, y, sel, r, i, rfl, rfl, hy, ho, hn⟩
    exact ⟨sel, by simp [receiverField, hy, ho], hn⟩

theorem codeFromConstant {isPrint : Nat → Bool} (hp : PrintsAscii isPrint) {v : Const} {c : GoString}
    (h : getErrorCodeFromConstant isPrint v = some c) : v = .str c ∧ (c = [] ∨ WellFormed c) := by
  cases v with
  | other => simp [getErrorCodeFromConstant] at h
  | str s =>
    obtain ⟨h1, h2, h3, -⟩ := Props.Extract.constant_code_partial isPrint hp s
    by_cases hw : WellFormed s ∧ s.length ≤ 70
    · rw [h1 hw] at h; cases h; exact ⟨rfl, .inr hw.1⟩
    · by_cases hne : s = []
      · subst hne; rw [h2] at h; cases h; exact ⟨rfl, .inl rfl⟩
      · rw [h3 hw hne] at h; cases h

theorem namedResult_unique {i j : Ident} (h : NamedResult env f i) (h' : NamedResult env f j) : i = j := by
  obtain ⟨t, h⟩ := h
  obtain ⟨t', h'⟩ := h'
  rw [h] at h'; cases h'; rfl

/-- Everything has been looked at, whether or not there were problems. -/
structure Finished (env : Env) (f : FnId) (body : List Node) (receiver : Option Ident) (st : TagState) : Prop where
  exprs : ∀ n, Looked env f body n → Handled env f body receiver st n
  vars : ∀ v, Followed env f body v → VarDone env f body receiver st v
  refs : ∀ i, Referenced env f body i → RefDone env f body st i
  step : Step env f body receiver ⟨[], [], none, []⟩ st

theorem finished (hty : Typed env f body) (hs : Scoped env f body) {st : TagState}
    (h : returnStmts env f body receiver fuel (Node.inspectList intoCode body) ⟨[], [], none, []⟩ = .ok st) :
    Finished env f body receiver st := by
  obtain ⟨s, d⟩ := returnStmts_step hty hs _ _ _ (by intro g hg; cases hg) (fun n hn => (mem_inspectList _ _ _).1 hn) h
  have hrets : ∀ rs, CodeExec.Returns body rs → (∀ e, rs = [e] → Handled env f body receiver st e) ∧
      (rs = [] → ∃ i, NamedResult env f i ∧ RefDone env f body st i) := by
    rintro rs ⟨id, hw⟩
    exact d id rs ((mem_inspectList _ _ _).2 hw)
  have href : ∀ i v, Referenced env f body i → i.obj = some v → Local env (env.func f) body none i →
      RefDone env f body st i → v ∈ st.visited := by
    intro i v hi ho hl hr
    exact hr.1 hl (hty.nil i v (referenced_strIdent hi) ho) v ho
  have hvar : ∀ v, Followed env f body v → v ∈ st.visited := by
    intro v hv
    induction hv with
    | @bare i v hr hn ho hl =>
      obtain ⟨j, hj, hrd⟩ := (hrets _ hr).2 rfl
      have := namedResult_unique hn hj; subst this
      exact href i v (.inr ⟨hr, hn⟩) ho hl hrd
    | @ret e i v hr hval hi ho hl =>
      exact href i v (.inl ⟨e, .inl hr, hval, hi⟩) ho hl
        (((hrets _ hr).1 e rfl).ident hval (by rw [hi, receiverField_ident]) i hi)
    | @source u e i v hu hsrc hval hi ho hl ih =>
      rw [← Node.unparen_unparen] at hval hi
      exact href i v (.inl ⟨e.unparen, .inr ⟨u, e, hu, hsrc, rfl⟩, hval, hi⟩) ho hl
        (((s.done u ih (by simp)).sources e hsrc).ident hval (by rw [hi, receiverField_ident]) i hi)
  have hdone : ∀ v, Followed env f body v → VarDone env f body receiver st v := fun v hv => s.done v (hvar v hv) (by simp)
  have hexprs : ∀ n, Looked env f body n → Handled env f body receiver st n := by
    rintro n (hn | ⟨v, e, hv, hsrc, rfl⟩)
    · exact (hrets _ hn).1 n rfl
    · exact (hdone v hv).sources e hsrc
  refine ⟨hexprs, hdone, ?_, s⟩
  rintro i (⟨n, hn, hval, hi⟩ | ⟨hr, hn⟩)
  · exact (hexprs n hn).ident hval (by rw [hi, receiverField_ident]) i hi
  · obtain ⟨j, hj, hrd⟩ := (hrets _ hr).2 rfl
    have := namedResult_unique hn hj; subst this
    exact hrd

/-- Everything has been looked at and nothing was reported. -/
structure Complete (env : Env) (f : FnId) (body : List Node) (receiver : Option Ident) (st : TagState) : Prop where
  exprs : ∀ e, StrExpr env f body e → Handled env f body receiver st e
  vars : ∀ v, StrVar env f body v → VarDone env f body receiver st v
  locals : ∀ v, StrVar env f body v →
    startPos (env.func f) < (env.object v).pos ∧ (env.object v).pos < (env.func f).bodyEnd ∧ ¬ LitParam body v
  silent : st.diags = []

/-- In silence parentheses make no difference. -/
theorem Handled.congr {st : TagState} (hd : st.diags = []) {e : Node} (h : Handled env f body receiver st e.unparen) :
    Handled env f body receiver st e where
  const := by have := h.const; rwa [Node.unparen_unparen] at this
  bad v hv hc := by
    have := h.bad v (by rwa [Node.unparen_unparen]) hc
    simp [Said, hd] at this
  field hv sel hs :=
    let ⟨g, hg, hg'⟩ := h.field (by rwa [Node.unparen_unparen]) sel (by rwa [Node.unparen_unparen])
    ⟨g, hg, hg'.imp id (by simp [Said, hd])⟩
  ident := by have := h.ident; rwa [Node.unparen_unparen] at this
  other hv hs hi := by
    have := h.other (by rwa [Node.unparen_unparen]) (by rwa [Node.unparen_unparen]) (by rwa [Node.unparen_unparen])
    simp [Said, hd] at this

theorem complete (hty : Typed env f body) (hs : Scoped env f body) {st : TagState}
    (h : returnStmts env f body receiver fuel (Node.inspectList intoCode body) ⟨[], [], none, []⟩ = .ok st)
    (hd : st.diags = []) : Complete env f body receiver st := by
  have hfin := finished hty hs h
  -- what is referred to is local
  have hloc : ∀ i, Referenced env f body i → Local env (env.func f) body none i := by
    intro i hi
    by_cases hl : Local env (env.func f) body none i
    · exact hl
    · have := (hfin.refs i hi).2 hl
      rw [hd] at this; simp at this
  have hpos : ∀ i v, Referenced env f body i → i.obj = some v → startPos (env.func f) < (env.object v).pos ∧
      (env.object v).pos < (env.func f).bodyEnd ∧ ¬ LitParam body v := by
    intro i v hi ho
    rcases hloc i hi with ⟨h, -⟩ | ⟨hin, hlp⟩
    · exact absurd rfl h
    · rcases hin with h | ⟨o, ho', h1, h2⟩
      · exact absurd h (hty.nil i v (referenced_strIdent hi) ho)
      · rw [ho] at ho'; cases ho'
        exact ⟨h1, h2, hlp v ho⟩
  have hvar : ∀ v, StrVar env f body v → Followed env f body v ∧ startPos (env.func f) < (env.object v).pos ∧
      (env.object v).pos < (env.func f).bodyEnd ∧ ¬ LitParam body v := by
    intro v hv
    induction hv with
    | @bare i v hr hn ho =>
      have hi : Referenced env f body i := .inr ⟨hr, hn⟩
      exact ⟨followed_of_ident hi ho (hloc i hi), hpos i v hi ho⟩
    | @ret e v hr hv =>
      obtain ⟨hval, i, hi, ho⟩ := hv
      have hi : Referenced env f body i := .inl ⟨e, .inl hr, hval, hi⟩
      exact ⟨followed_of_ident hi ho (hloc i hi), hpos i v hi ho⟩
    | @source u e v hu hsrc hv ih =>
      obtain ⟨hval, i, hi, ho⟩ := hv
      have hi : Referenced env f body i := .inl ⟨e.unparen, .inr ⟨u, e, ih.1, hsrc, rfl⟩, by rwa [Node.unparen_unparen],
        by rwa [Node.unparen_unparen]⟩
      exact ⟨followed_of_ident hi ho (hloc i hi), hpos i v hi ho⟩
  refine ⟨fun e he => ?_, fun v hv => hfin.vars v (hvar v hv).1, fun v hv => (hvar v hv).2, hd⟩
  rcases he with he | ⟨v, hv, he⟩
  · exact hfin.exprs e (.inl he)
  · exact ((hfin.vars v (hvar v hv).1).sources e he).congr hd

/-- The string is empty, one of the codes, or was the value of the field at some point. -/
def Covered (st : TagState) (τ : List State) (s : GoString) : Prop :=
  s = [] ∨ s ∈ st.codes ∨ ∃ g σ, st.field = some g ∧ σ ∈ τ ∧ s = σ.field g.name

theorem Covered.mono {st : TagState} {τ τ' : List State} (h : ∀ σ ∈ τ, σ ∈ τ') {s : GoString} (hc : Covered st τ s) :
    Covered st τ' s := by
  rcases hc with hc | hc | ⟨g, σ, hg, hσ, hs⟩
  · exact .inl hc
  · exact .inr (.inl hc)
  · exact .inr (.inr ⟨g, σ, hg, h σ hσ, hs⟩)

theorem not_said {st : TagState} (hd : st.diags = []) {e : Node} {m : TagMsg} : ¬ Said st e m := by
  simp [Said, hd]

/-- Evaluating a returned expression when the returned variables hold covered values. -/
theorem eval_covered (hp : PrintsAscii env.isPrint) (hsup : Supported env x f body receiver)
    {st : TagState} (hc : Complete env f body receiver st) {σ : State} {τ : List State} (hσ : σ ∈ τ)
    (hvar : ∀ v, StrVar env f body v → ∀ n, Covered st τ (σ.var v n)) {e : Node} (he : StrExpr env f body e)
    {s : GoString} (hev : Eval env x body receiver σ e s) : Covered st τ s := by
  have hh := hc.exprs e he
  cases hev with
  | const hv =>
    cases hg : getErrorCodeFromConstant env.isPrint (.str s) with
    | none => exact absurd (hh.bad _ hv hg) (not_said hc.silent)
    | some c =>
      obtain ⟨h, -⟩ := codeFromConstant hp hg
      cases h
      by_cases hn : s = []
      · exact .inl hn
      · exact .inr (.inl (hh.const _ _ hv hg hn))
  | @field name hv hf =>
    obtain ⟨sel, hsel, hname⟩ := receiverField_iff.2 hf
    obtain ⟨g, hg, h⟩ := hh.field hv sel hsel
    rcases h with h | h
    · exact .inr (.inr ⟨g, σ, hg, hσ, by rw [h, hname]⟩)
    · exact absurd h (not_said hc.silent)
  | reassigned hv hf hr hro hre => exact absurd hre (hsup.receiver _ _ hr hro)
  | @var i v n hv hi ho =>
    refine hvar v ?_ n
    rcases he with he | ⟨u, hu, hsrc⟩
    · exact .ret he ⟨hv, i, hi, ho⟩
    · exact .source hu hsrc ⟨hv, i, hi, ho⟩
  | any hv hf hi =>
    have hf' : receiverField receiver e.unparen = none := by
      cases h : receiverField receiver e.unparen with
      | none => rfl
      | some sel => exact absurd ⟨sel.name, receiverField_iff.1 ⟨sel, h, rfl⟩⟩ hf
    by_cases hid : ∃ i, e.unparen = .ident i
    · obtain ⟨i, hi'⟩ := hid
      have hr := hh.ident hv hf' i hi'
      obtain ⟨ho, hn⟩ := hi i hi'
      have : ¬ Local env (env.func f) body none i := by
        rintro (⟨h, -⟩ | ⟨h | ⟨o, ho', -⟩, -⟩)
        · exact absurd rfl h
        · exact hn h
        · rw [ho] at ho'; cases ho'
      have := hr.2 this
      rw [hc.silent] at this; simp at this
    · exact absurd (hh.other hv hf' fun i hi => hid ⟨i, hi⟩) (not_said hc.silent)

/-- All returned variables hold covered values at any time. -/
theorem execution_covered (hp : PrintsAscii env.isPrint) (hsup : Supported env x f body receiver)
    {st : TagState} (hc : Complete env f body receiver st) {τ : List State} (h : Execution env x f body receiver τ) :
    ∀ σ ∈ τ.head?, ∀ v, StrVar env f body v → ∀ n, Covered st τ (σ.var v n) := by
  have hwild : ∀ v, StrVar env f body v → ¬ Wild env x f body v := by
    intro v hv hw
    obtain ⟨h1, h2, h3⟩ := hc.locals v hv
    rcases hw with h | h | h
    · exact h ⟨h1, h2⟩
    · exact h3 h
    · exact hsup.plain v hv h
  induction h with
  | @start σ hi =>
    intro σ' hσ' v hv n
    simp only [List.head?_cons, Option.mem_def, Option.some.injEq] at hσ'; subst hσ'
    rcases hi v n with h | h
    · exact .inl h
    · exact absurd h (hwild v hv)
  | @step σ τ σ' hex hst ih =>
    intro σ'' hσ'' v hv n
    simp only [List.head?_cons, Option.mem_def, Option.some.injEq] at hσ''; subst hσ''
    have ih' := ih σ (by simp)
    refine Covered.mono (τ := σ :: τ) (fun _ h => List.mem_cons_of_mem _ h) ?_
    rcases hst v n with h | h
    · rw [h]; exact ih' v hv n
    · generalize σ'.var v n = s at h
      cases h with
      | zero => exact .inl rfl
      | source hsrc hev => exact eval_covered hp hsup hc (by simp) ih' (.inr ⟨v, hv, hsrc⟩) hev
      | destructured hd =>
        have := (hc.vars v hv).destructs _ hd
        rw [hc.silent] at this; simp at this
      | wild hw => exact absurd hw (hwild v hv)

/-- The result of a silent method. -/
theorem result_covered (hp : PrintsAscii env.isPrint) (hsup : Supported env x f body receiver)
    {st : TagState} (hc : Complete env f body receiver st) {σ : State} {τ : List State}
    (h : Execution env x f body receiver (σ :: τ)) {s : GoString} (hr : Result env x f body receiver σ s) :
    Covered st (σ :: τ) s := by
  have hv := execution_covered hp hsup hc h σ (by simp)
  cases hr with
  | expr hret hev => exact eval_covered hp hsup hc (by simp) hv (.inl hret) hev
  | bare hret hn ho => exact hv _ (.bare hret hn ho) _
  | deferred hd hn ho => rw [hsup.defers ⟨_, hn⟩] at hd; cases hd

end CodeMethod
end Serum
