import Verif.ErrorTypes
import Verif.Spec.CodeMethodExec
import Verif.TaintLemmas
import Verif.AnalyseFuel

/-! # What looking at a `Code` method finds -/

namespace Serum
namespace CodeMethod
open Flow Taint CodeExec

variable (env : Env) (f : FnId) (body : List Node) (receiver : Option Ident) (fuel : Nat)

/-- A state with at least the contents of another one. -/
structure Le (st st' : TagState) : Prop where
  visited : ∀ o ∈ st.visited, o ∈ st'.visited
  codes : ∀ c ∈ st.codes, c ∈ st'.codes
  diags : ∀ d ∈ st.diags, d ∈ st'.diags
  field : ∀ g, st.field = some g → st'.field = some g

/-- A report about an expression. -/
def Said (st : TagState) (e : Node) (m : TagMsg) : Prop :=
  (⟨e.id, m⟩ : TagDiag) ∈ st.diags

/-- The variable behind an identifier has been visited, or the identifier is reported. -/
def RefDone (st : TagState) (i : Ident) : Prop :=
  (Local env (env.func f) body none i → i.name ≠ b!"nil" → ∀ x, i.obj = some x → x ∈ st.visited) ∧
  (¬ Local env (env.func f) body none i → (⟨i.id, .outOfScope⟩ : TagDiag) ∈ st.diags)

/-- An expression has been looked at. -/
structure Handled (st : TagState) (e : Node) : Prop where
  const : ∀ v c, env.value e.unparen.id = some v → getErrorCodeFromConstant env.isPrint v = some c → c ≠ [] →
    c ∈ st.codes
  bad : ∀ v, env.value e.unparen.id = some v → getErrorCodeFromConstant env.isPrint v = none → Said st e (.badConstant (constantError env.isPrint v))
  field : env.value e.unparen.id = none → ∀ sel, receiverField receiver e.unparen = some sel →
    ∃ g, st.field = some g ∧ (g.name = sel.name ∨ Said st e (.secondField sel.name g.name))
  ident : env.value e.unparen.id = none → receiverField receiver e.unparen = none → ∀ i, e.unparen = .ident i →
    RefDone env f body st i
  other : env.value e.unparen.id = none → receiverField receiver e.unparen = none → (∀ i, e.unparen ≠ .ident i) →
    Said st e .notConstantOrField

/-- Everything assigned to a variable has been looked at. -/
structure VarDone (st : TagState) (x : ObjId) : Prop where
  sources : ∀ e, Source env body x e → Handled env f body receiver st e.unparen
  destructs : ∀ d, Destructured env body x d → (⟨d.source.id, .destructured d.target.name⟩ : TagDiag) ∈ st.diags

/-- The diagnostics that may be emitted for the method. -/
inductive JustDiag (chosen : Option Ident) (d : TagDiag) : Prop where
  | bad {e v} : Looked env f body e → env.value e.unparen.id = some v →
      getErrorCodeFromConstant env.isPrint v = none → d = ⟨e.id, .badConstant (constantError env.isPrint v)⟩ → JustDiag chosen d
  | second {e e' sel sel'} : Looked env f body e → Looked env f body e' → env.value e.unparen.id = none →
      env.value e'.unparen.id = none → receiverField receiver e.unparen = some sel →
      receiverField receiver e'.unparen = some sel' → sel.name ≠ sel'.name → chosen = some sel' →
      d = ⟨e.id, .secondField sel.name sel'.name⟩ → JustDiag chosen d
  | other {e} : Looked env f body e → env.value e.unparen.id = none → receiverField receiver e.unparen = none →
      (∀ i, e.unparen ≠ .ident i) → d = ⟨e.id, .notConstantOrField⟩ → JustDiag chosen d
  | outOfScope {i} : Referenced env f body i → ¬ Local env (env.func f) body none i → d = ⟨i.id, .outOfScope⟩ → JustDiag chosen d
  | destructured {x d'} : Followed env f body x → Destructured env body x d' → d = ⟨d'.source.id, .destructured d'.target.name⟩ → JustDiag chosen d

/-- What a step achieves. -/
structure Step (st st' : TagState) : Prop where
  le : Le st st'
  done : ∀ x ∈ st'.visited, x ∉ st.visited → VarDone env f body receiver st' x
  vars : ∀ x ∈ st'.visited, x ∉ st.visited → Followed env f body x
  codes : ∀ c ∈ st'.codes, c ∈ st.codes ∨ (c ≠ [] ∧ ∃ e v, Looked env f body e ∧ env.value e.unparen.id = some v ∧
    getErrorCodeFromConstant env.isPrint v = some c)
  field : ∀ g, st'.field = some g → st.field = some g ∨ ∃ e, Looked env f body e ∧ env.value e.unparen.id = none ∧
    receiverField receiver e.unparen = some g
  diags : ∀ d ∈ st'.diags, d ∈ st.diags ∨ JustDiag env f body receiver st'.field d

/-- The field noted so far is a field that may be returned. -/
def FieldOk (st : TagState) : Prop :=
  ∀ g, st.field = some g → ∃ e, Looked env f body e ∧ env.value e.unparen.id = none ∧
    receiverField receiver e.unparen = some g

variable {env f body receiver fuel}

theorem Le.refl (st : TagState) : Le st st := ⟨fun _ h => h, fun _ h => h, fun _ h => h, fun _ h => h⟩
theorem Le.trans {a b c : TagState} (h : Le a b) (h' : Le b c) : Le a c :=
  ⟨fun o ho => h'.visited o (h.visited o ho), fun o ho => h'.codes o (h.codes o ho),
   fun o ho => h'.diags o (h.diags o ho), fun o ho => h'.field o (h.field o ho)⟩

theorem Said.mono {st st' : TagState} (h : Le st st') {e : Node} {m : TagMsg} (hs : Said st e m) : Said st' e m :=
  h.diags _ hs

theorem JustDiag.mono {a b : Option Ident} (h : ∀ g, a = some g → b = some g) {d : TagDiag}
    (hj : JustDiag env f body receiver a d) : JustDiag env f body receiver b d := by
  cases hj with
  | bad h1 h2 h3 h4 => exact .bad h1 h2 h3 h4
  | second h1 h2 h3 h4 h5 h6 h7 h8 h9 => exact .second h1 h2 h3 h4 h5 h6 h7 (h _ h8) h9
  | other h1 h2 h3 h4 h5 => exact .other h1 h2 h3 h4 h5
  | outOfScope h1 h2 h3 => exact .outOfScope h1 h2 h3
  | destructured h1 h2 h3 => exact .destructured h1 h2 h3

theorem RefDone.mono {st st' : TagState} (h : Le st st') {i : Ident} (hr : RefDone env f body st i) :
    RefDone env f body st' i :=
  ⟨fun hl hn x hx => h.visited x (hr.1 hl hn x hx), fun hl => h.diags _ (hr.2 hl)⟩

theorem Handled.mono {st st' : TagState} (h : Le st st') {e : Node} (hh : Handled env f body receiver st e) :
    Handled env f body receiver st' e where
  const v c hv hc hn := h.codes c (hh.const v c hv hc hn)
  bad v hv hc := (hh.bad v hv hc).mono h
  field hv sel hs := let ⟨g, hg, hg'⟩ := hh.field hv sel hs; ⟨g, h.field g hg, hg'.imp id (Said.mono h)⟩
  ident hv hs i hi := (hh.ident hv hs i hi).mono h
  other hv hs hi := (hh.other hv hs hi).mono h

theorem VarDone.mono {st st' : TagState} (h : Le st st') {x : ObjId} (hh : VarDone env f body receiver st x) :
    VarDone env f body receiver st' x :=
  ⟨fun e he => (hh.sources e he).mono h, fun d hd => h.diags _ (hh.destructs d hd)⟩

theorem Step.refl (st : TagState) : Step env f body receiver st st :=
  ⟨Le.refl _, fun _ h hn => absurd h hn, fun _ h hn => absurd h hn, fun _ h => .inl h, fun _ h => .inl h, fun _ h => .inl h⟩

theorem Step.trans {a b c : TagState} (h : Step env f body receiver a b) (h' : Step env f body receiver b c) :
    Step env f body receiver a c where
  le := h.le.trans h'.le
  done x hx hn := by
    by_cases hb : x ∈ b.visited
    · exact (h.done x hb hn).mono h'.le
    · exact h'.done x hx hb
  vars x hx hn := by
    by_cases hb : x ∈ b.visited
    · exact h.vars x hb hn
    · exact h'.vars x hx hb
  codes c hc := (h'.codes c hc).elim (h.codes c) .inr
  field g hg := (h'.field g hg).elim (h.field g) .inr
  diags d hd := (h'.diags d hd).elim (fun hb => (h.diags d hb).imp id (JustDiag.mono h'.le.field)) .inr

theorem Step.fieldOk {a b : TagState} (h : Step env f body receiver a b) (ha : FieldOk env f body receiver a) :
    FieldOk env f body receiver b := fun g hg => (h.field g hg).elim (ha g) id

theorem mem_add {s : CodeSet} {c v : GoString} : c ∈ s.add v ↔ c ∈ s ∨ c = v := by
  unfold CodeSet.add
  split
  · exact ⟨.inl, fun h => h.elim id (by rintro rfl; assumption)⟩
  · simp

theorem step_report {st : TagState} {id : NodeId} {m : TagMsg} (h : JustDiag env f body receiver st.field ⟨id, m⟩) :
    Step env f body receiver st (report st id m) where
  le := ⟨fun _ h => h, fun _ h => h, fun d hd => by simp [report, hd], fun _ h => h⟩
  done x hx hn := absurd hx hn
  vars x hx hn := absurd hx hn
  codes c hc := .inl hc
  field g hg := .inl hg
  diags d hd := by
    simp only [report, List.mem_append, List.mem_singleton] at hd
    exact hd.imp (fun h => h) (by rintro rfl; exact h)

/-- One expression. -/
theorem returnedExpression_step {taint : Ident → TagState → Except Stop TagState} {e₀ : Node}
    (he : Looked env f body e₀) {st st' : TagState} (hf : FieldOk env f body receiver st)
    (ht : ∀ i st', env.value e₀.unparen.id = none → e₀.unparen = .ident i → taint i st = .ok st' →
      Step env f body receiver st st' ∧ RefDone env f body st' i)
    (h : returnedExpression env receiver taint e₀ st = .ok st') :
    Step env f body receiver st st' ∧ Handled env f body receiver st' e₀ := by
  have said : ∀ m, Said (report st e₀.id m) e₀ m := by
    intro m
    simp [Said, report]
  unfold returnedExpression at h
  split at h
  · rename_i v hv
    split at h
    · rename_i c hc
      by_cases hn : c = []
      · simp only [hn, ne_eq, not_true_eq_false, if_false] at h
        cases h
        refine ⟨Step.refl _, ⟨fun v' c' hv' hc' hn' => ?_, fun v' hv' hc' => ?_, fun h => ?_, fun h => ?_, fun h => ?_⟩⟩
        · rw [hv] at hv'; cases hv'; rw [hc] at hc'; cases hc'; exact absurd hn hn'
        · rw [hv] at hv'; cases hv'; rw [hc] at hc'; cases hc'
        all_goals (rw [hv] at h; cases h)
      · simp only [ne_eq, hn, not_false_eq_true, if_true] at h
        cases h
        refine ⟨⟨⟨fun _ h => h, fun c' h => mem_add.2 (.inl h), fun _ h => h, fun _ h => h⟩, fun _ h hn => absurd h hn,
          fun _ h hn => absurd h hn, fun c' h => ?_, fun _ h => .inl h, fun _ h => .inl h⟩,
          ⟨fun v' c' hv' hc' hn' => ?_, fun v' hv' hc' => ?_, fun h => ?_, fun h => ?_, fun h => ?_⟩⟩
        · rcases mem_add.1 h with h | rfl
          · exact .inl h
          · exact .inr ⟨hn, e₀, v, he, hv, hc⟩
        · rw [hv] at hv'; cases hv'; rw [hc] at hc'; cases hc'; exact mem_add.2 (.inr rfl)
        · rw [hv] at hv'; cases hv'; rw [hc] at hc'; cases hc'
        all_goals (rw [hv] at h; cases h)
    · rename_i hc
      cases h
      refine ⟨step_report (.bad he hv hc rfl), ⟨fun v' c' hv' hc' hn' => ?_, fun v' hv' hc' => by
        rw [hv] at hv'; cases hv'; exact said _, fun h => ?_, fun h => ?_, fun h => ?_⟩⟩
      · rw [hv] at hv'; cases hv'; rw [hc] at hc'; cases hc'
      all_goals (rw [hv] at h; cases h)
  · rename_i hv
    have noconst : ∀ {P : Prop} v, env.value e₀.unparen.id = some v → P := by
      intro P v h; rw [hv] at h; cases h
    split at h
    · rename_i sel hsel
      split at h
      · cases h
        rename_i hst
        refine ⟨⟨⟨fun _ h => h, fun _ h => h, fun _ h => h, fun g hg => ?_⟩, fun _ h hn => absurd h hn,
          fun _ h hn => absurd h hn, fun _ h => .inl h, fun g hg => ?_, fun _ h => .inl h⟩,
          ⟨fun v _ h _ _ => noconst v h, fun v h _ => noconst v h, fun _ sel' hs => ?_, fun _ hs => ?_, fun _ hs => ?_⟩⟩
        · rw [hst] at hg; cases hg
        · cases hg; exact .inr ⟨e₀, he, hv, hsel⟩
        · rw [hsel] at hs; cases hs; exact ⟨sel, rfl, .inl rfl⟩
        all_goals (rw [hsel] at hs; cases hs)
      · rename_i g hg
        by_cases hne : g.name = sel.name
        · simp only [hne, ne_eq, not_true_eq_false, if_false] at h
          cases h
          refine ⟨Step.refl _, ⟨fun v _ h _ _ => noconst v h, fun v h _ => noconst v h, fun _ sel' hs => ?_, fun _ hs => ?_, fun _ hs => ?_⟩⟩
          · rw [hsel] at hs; cases hs; exact ⟨g, hg, .inl hne⟩
          all_goals (rw [hsel] at hs; cases hs)
        · simp only [ne_eq, hne, not_false_eq_true, if_true] at h
          cases h
          obtain ⟨e', he', hv', hs'⟩ := hf g hg
          refine ⟨step_report (.second he he' hv hv' hsel hs' (Ne.symm hne) hg rfl), ⟨fun v _ h _ _ => noconst v h, fun v h _ => noconst v h,
            fun _ sel' hs => ?_, fun _ hs => ?_, fun _ hs => ?_⟩⟩
          · rw [hsel] at hs; cases hs; exact ⟨g, hg, .inr (said _)⟩
          all_goals (rw [hsel] at hs; cases hs)
    · rename_i hsel
      split at h
      · rename_i i hi
        obtain ⟨h1, h2⟩ := ht i st' hv hi h
        refine ⟨h1, ⟨fun v _ h _ _ => noconst v h, fun v h _ => noconst v h, fun _ sel' hs => ?_, fun _ _ j hj => ?_, fun _ _ hs => ?_⟩⟩
        · rw [hsel] at hs; cases hs
        · rw [hi] at hj; cases hj; exact h2
        · exact absurd hi (hs i)
      · rename_i hni
        cases h
        refine ⟨step_report (.other he hv hsel (fun i hi => hni i hi) rfl), ⟨fun v _ h _ _ => noconst v h, fun v h _ => noconst v h,
          fun _ sel' hs => ?_, fun _ _ j hj => ?_, fun _ _ _ => said _⟩⟩
        · rw [hsel] at hs; cases hs
        · exact absurd hj (hni j)

/-- A list of expressions. -/
theorem returnedExpressions_step {expr : Node → TagState → Except Stop TagState} : ∀ (es : List Node) (st st' : TagState),
    FieldOk env f body receiver st → (∀ e ∈ es, Looked env f body e) →
    (∀ e ∈ es, ∀ st st', FieldOk env f body receiver st →
      expr e st = .ok st' → Step env f body receiver st st' ∧ Handled env f body receiver st' e) →
    returnedExpressions expr es st = .ok st' →
    Step env f body receiver st st' ∧ ∀ e ∈ es, Handled env f body receiver st' e := by
  intro es
  induction es with
  | nil => intro st st' _ _ _ h; cases h; exact ⟨Step.refl _, by simp⟩
  | cons e es ih =>
    intro st st' hf hstr hex h
    simp only [returnedExpressions, bind, Except.bind] at h
    split at h
    · cases h
    · rename_i st₁ h₁
      obtain ⟨s₁, d₁⟩ := hex e (by simp) st st₁ hf h₁
      obtain ⟨s₂, d₂⟩ := ih st₁ st' (s₁.fieldOk hf) (fun e he => hstr e (by simp [he])) (fun e he => hex e (by simp [he])) h
      refine ⟨s₁.trans s₂, fun e₁ hm => ?_⟩
      rcases List.mem_cons.1 hm with rfl | hm
      · exact d₁.mono s₂.le
      · exact d₂ e₁ hm

theorem followed_strVar {x : ObjId} (h : Followed env f body x) : StrVar env f body x := by
  induction h with
  | bare h1 h2 h3 _ => exact .bare h1 h2 h3
  | ret h1 h2 h3 h4 _ => exact .ret h1 ⟨h2, _, h3, h4⟩
  | source _ h1 h2 h3 h4 _ ih => exact .source ih h1 ⟨h2, _, h3, h4⟩

theorem looked_strExpr {n : Node} (h : Looked env f body n) : ∃ e, StrExpr env f body e ∧ n.unparen = e.unparen := by
  rcases h with h | ⟨v, e, hv, hs, rfl⟩
  · exact ⟨n, .inl h, rfl⟩
  · exact ⟨e, .inr ⟨v, followed_strVar hv, hs⟩, Node.unparen_unparen _⟩

theorem referenced_strIdent {i : Ident} (h : Referenced env f body i) : StrIdent env f body i := by
  rcases h with ⟨n, hn, hv, hi⟩ | h
  · obtain ⟨e, he, hu⟩ := looked_strExpr hn
    exact .inl ⟨e, he, by rw [← hu]; exact hv, by rw [← hu]; exact hi⟩
  · exact .inr h

theorem followed_of_ident {i : Ident} (h : Referenced env f body i) {x : ObjId} (ho : i.obj = some x)
    (hl : Local env (env.func f) body none i) : Followed env f body x := by
  rcases h with ⟨e, he, hv, hi⟩ | ⟨hr, hn⟩
  · rcases he with he | ⟨u, e', hu, hs, rfl⟩
    · exact .ret he hv hi ho hl
    · rw [Node.unparen_unparen] at hv hi
      exact .source hu hs hv hi ho hl
  · exact .bare hr hn ho hl

/-- Variables tracked from an identifier that is referred to are followed. -/
theorem tracked_followed (hty : Typed env f body) {seen : List ObjId} {i : Ident} (hi : Referenced env f body i) {x : ObjId}
    (h : Tracked env (env.func f) body none seen i x) : Followed env f body x := by
  induction h with
  | start ho _ hl _ => exact followed_of_ident hi ho hl
  | step _ hs hv _ hl _ ih =>
    have he : StrExpr env f body _ := .inr ⟨_, followed_strVar ih, hs⟩
    exact .source ih hs (hty.vars _ _ _ he hv.1 hv.2.1 hv.2.2) hv.1 hv.2.1 hl

theorem local_noObj' {i : Ident} (ho : i.obj = none) :
    Local env (env.func f) body none i ↔ i.name = b!"nil" := by
  unfold Local Inside
  simp [ho]

theorem receiverField_ident (i : Ident) : receiverField receiver (.ident i) = none := by
  unfold receiverField; simp

/-- Tracking a variable that may be returned. -/
theorem identTaint_step (hty : Typed env f body) (hs : Scoped env f body) : ∀ (depth : Nat) (i : Ident)
    (st st' : TagState), Referenced env f body i → FieldOk env f body receiver st →
    identTaint env f body receiver fuel depth i st = .ok st' →
    Step env f body receiver st st' ∧ RefDone env f body st' i := by
  intro depth
  induction depth with
  | zero => intro i st st' _ _ h; simp [identTaint] at h
  | succ depth ih =>
    intro i st st' hi hf h
    simp only [identTaint, bind, Except.bind] at h
    split at h
    · cases h
    · rename_i t hrun
      cases ho : i.obj with
      | none =>
        have ht := run_noObj ho hrun
        subst ht
        simp only [returnedExpressions] at h
        cases h
        by_cases hn : i.name = b!"nil"
        · simp only [hn, if_true, List.map_nil, List.append_nil]
          exact ⟨Step.refl _, fun _ hne => absurd hn hne, fun hl => absurd ((local_noObj' ho).2 hn) hl⟩
        · have hnl : ¬ Local env (env.func f) body none i := fun h => hn ((local_noObj' ho).1 h)
          simp only [hn, if_false, List.map_cons, List.map_nil, List.append_nil]
          exact ⟨step_report (.outOfScope hi hnl rfl), fun hl => absurd hl hnl, fun _ => by simp⟩
      | some x =>
        obtain ⟨r1, r2, r3, r4⟩ := run_spec hs.before ho (hs.clean i (referenced_strIdent hi)) hrun
        -- the state after tracking
        generalize hst₁ : ({ st with
          visited := t.visited
          diags := st.diags ++ t.outOfScope.map (fun i => (⟨i.id, .outOfScope⟩ : TagDiag)) ++
            t.destructs.map (fun d => ⟨d.source.id, .destructured d.target.name⟩) } : TagState) = st₁ at h
        have hv₁ : st₁.visited = t.visited := by rw [← hst₁]
        have hf₁ : FieldOk env f body receiver st₁ := by
          intro g hg; exact hf g (by rw [← hst₁] at hg; exact hg)
        have hle₁ : Le st st₁ := by
          subst hst₁
          exact ⟨fun o ho => (r1 o).2 (.inl ho), fun _ h => h, fun d hd => by simp [hd], fun _ h => h⟩
        have hout : ∀ j ∈ t.outOfScope, (⟨j.id, .outOfScope⟩ : TagDiag) ∈ st₁.diags := by
          intro j hj; subst hst₁
          simp only [List.mem_append, List.mem_map]
          exact .inl (.inr ⟨j, hj, rfl⟩)
        have hdes : ∀ d ∈ t.destructs, (⟨d.source.id, .destructured d.target.name⟩ : TagDiag) ∈ st₁.diags := by
          intro d hd; subst hst₁
          simp only [List.mem_append, List.mem_map]
          exact .inr ⟨d, hd, rfl⟩
        have hmem : ∀ e ∈ t.expressions, Looked env f body e := by
          intro e he
          obtain ⟨x', e', htr, hsrc, -, rfl⟩ := (r2 e).1 he
          exact .inr ⟨x', e', tracked_followed hty hi htr, hsrc, rfl⟩
        obtain ⟨s₂, d₂⟩ := returnedExpressions_step t.expressions st₁ st' hf₁ hmem (by
          intro e he a b ha hab
          refine returnedExpression_step (hmem e he) ha (fun j b' hv hj hb' => ?_) hab
          exact ih j a b' (.inl ⟨e, hmem e he, hv, hj⟩) ha hb') h
        have hvar : ∀ y, y ∈ t.visited → y ∉ st.visited → VarDone env f body receiver st' y := by
          intro y hy hny
          have hty' : Tracked env (env.func f) body none st.visited i y := ((r1 y).1 hy).resolve_left hny
          have hsv := tracked_followed hty hi hty'
          refine ⟨fun e hsrc => ?_, fun d hd => s₂.le.diags _ (hdes d ((r3 d).2 ⟨y, hty', hd⟩))⟩
          have hse : StrExpr env f body e := .inr ⟨y, followed_strVar hsv, hsrc⟩
          by_cases hu : ∃ j z, VarUse env e j z
          · obtain ⟨j, z, hu⟩ := hu
            have hval := hty.vars e j z hse hu.1 hu.2.1 hu.2.2
            rw [← Node.unparen_unparen] at hval
            have hun : e.unparen.unparen = .ident j := by rw [Node.unparen_unparen]; exact hu.1
            refine ⟨fun v _ h => by (rw [hval] at h; cases h), fun v h => by (rw [hval] at h; cases h), fun _ sel hsel => ?_,
              fun _ _ k hk => ?_, fun _ _ hn => absurd hun (hn j)⟩
            · rw [hun, receiverField_ident] at hsel; cases hsel
            · rw [hun] at hk; cases hk
              refine ⟨fun hl hn z' hz' => ?_, fun hl => s₂.le.diags _ (hout _ ((r4 _).2 ⟨hl, .inr ⟨y, e, z, hty', hsrc, hu⟩⟩))⟩
              rw [hu.2.1] at hz'; cases hz'
              refine s₂.le.visited z ?_
              rw [hv₁, r1]
              by_cases hzs : z ∈ st.visited
              · exact .inl hzs
              · exact .inr (.step hty' hsrc hu hn hl hzs)
          · exact d₂ _ ((r2 _).2 ⟨y, e, hty', hsrc, hu, rfl⟩)
        have hstep₁ : ∀ d ∈ st₁.diags, d ∈ st.diags ∨ JustDiag env f body receiver st'.field d := by
          intro d hd
          subst hst₁
          simp only [List.mem_append, List.mem_map] at hd
          rcases hd with (hd | ⟨j, hj, rfl⟩) | ⟨d', hd', rfl⟩
          · exact .inl hd
          · obtain ⟨hl, hj⟩ := (r4 j).1 hj
            rcases hj with rfl | ⟨x', e', y', htr, hsrc, hu⟩
            · exact .inr (.outOfScope hi hl rfl)
            · have hfo := tracked_followed hty hi htr
              have hse : StrExpr env f body e' := .inr ⟨x', followed_strVar hfo, hsrc⟩
              refine .inr (.outOfScope (.inl ⟨e'.unparen, .inr ⟨x', e', hfo, hsrc, rfl⟩, ?_, ?_⟩) hl rfl)
              · rw [Node.unparen_unparen]; exact hty.vars e' j y' hse hu.1 hu.2.1 hu.2.2
              · rw [Node.unparen_unparen]; exact hu.1
          · obtain ⟨x', htr, hd'⟩ := (r3 d').1 hd'
            exact .inr (.destructured (tracked_followed hty hi htr) hd' rfl)
        refine ⟨⟨hle₁.trans s₂.le, fun y hy hny => ?_, fun y hy hny => ?_, fun c hc => ?_, fun g hg => ?_, fun d hd => ?_⟩,
          fun hl hn x' hx' => ?_, fun hl => s₂.le.diags _ (hout i ((r4 i).2 ⟨hl, .inl rfl⟩))⟩
        · by_cases hyt : y ∈ t.visited
          · exact hvar y hyt hny
          · exact s₂.done y hy (by rwa [hv₁])
        · by_cases hyt : y ∈ t.visited
          · exact tracked_followed hty hi (((r1 y).1 hyt).resolve_left hny)
          · exact s₂.vars y hy (by rwa [hv₁])
        · rcases s₂.codes c hc with h | h
          · exact .inl (by rw [← hst₁] at h; exact h)
          · exact .inr h
        · rcases s₂.field g hg with h | h
          · exact .inl (by rw [← hst₁] at h; exact h)
          · exact .inr h
        · exact (s₂.diags d hd).elim (hstep₁ d) .inr
        · rw [ho] at hx'; cases hx'
          refine s₂.le.visited x ?_
          rw [hv₁, r1]
          by_cases hxs : x ∈ st.visited
          · exact .inl hxs
          · exact .inr (.start ho hn hl hxs)

/-- The return statements among the nodes have been looked at. -/
def RetsDone (env : Env) (f : FnId) (body : List Node) (receiver : Option Ident) (ns : List Node) (st : TagState) : Prop :=
  ∀ id results, .ret id results ∈ ns →
    (∀ e, results = [e] → Handled env f body receiver st e) ∧
    (results = [] → ∃ i, NamedResult env f i ∧ RefDone env f body st i)

theorem returnStmts_step (hty : Typed env f body) (hs : Scoped env f body) : ∀ (ns : List Node) (st st' : TagState),
    FieldOk env f body receiver st → (∀ n ∈ ns, WithinList intoCode n body) →
    returnStmts env f body receiver fuel ns st = .ok st' →
    Step env f body receiver st st' ∧ RetsDone env f body receiver ns st' := by
  intro ns
  induction ns with
  | nil => intro st st' _ _ h; cases h; exact ⟨Step.refl _, fun _ _ h => by simp at h⟩
  | cons n ns ih =>
    intro st st' hf hw h
    have skip : (∀ id rs, n ≠ .ret id rs) → returnStmts env f body receiver fuel ns st = .ok st' →
        Step env f body receiver st st' ∧ RetsDone env f body receiver (n :: ns) st' := by
      intro hn h
      obtain ⟨s, d⟩ := ih st st' hf (fun n hn => hw n (by simp [hn])) h
      refine ⟨s, fun id rs hm => ?_⟩
      rcases List.mem_cons.1 hm with hm | hm
      · exact absurd hm.symm (hn id rs)
      · exact d id rs hm
    cases n with
    | ret id rs =>
      simp only [returnStmts, bind, Except.bind] at h
      split at h
      · cases h
      · rename_i st₁ h₁
        have hret : CodeExec.Returns body rs := ⟨id, hw _ (by simp)⟩
        have : Step env f body receiver st st₁ ∧ ((∀ e, rs = [e] → Handled env f body receiver st₁ e) ∧
            (rs = [] → ∃ i, NamedResult env f i ∧ RefDone env f body st₁ i)) := by
          unfold returnStmt at h₁
          split at h₁
          · simp only [bind, Except.bind] at h₁
            split at h₁
            · cases h₁
            · rename_i i hi
              have hnr : NamedResult env f i := by
                unfold namedResult at hi
                split at hi
                · rename_i field hres
                  split at hi
                  · rename_i j hj
                    cases hi
                    obtain ⟨names, t⟩ := field
                    exact ⟨t, by rw [hres]; cases hj; rfl⟩
                  · cases hi
                · cases hi
              obtain ⟨s, r⟩ := identTaint_step hty hs fuel i st st₁ (.inr ⟨hret, hnr⟩) hf h₁
              exact ⟨s, by simp, fun _ => ⟨i, hnr, r⟩⟩
          · rename_i e
            obtain ⟨s, r⟩ := returnedExpression_step (.inl hret) hf (fun i st' hv hi hst =>
              identTaint_step hty hs fuel i st st' (.inl ⟨e, .inl hret, hv, hi⟩) hf hst) h₁
            exact ⟨s, fun e' he' => by cases he'; exact r, by simp⟩
          · cases h₁
        obtain ⟨s₁, d₁, b₁⟩ := this
        obtain ⟨s₂, d₂⟩ := ih st₁ st' (s₁.fieldOk hf) (fun n hn => hw n (by simp [hn])) h
        refine ⟨s₁.trans s₂, fun id' rs' hm => ?_⟩
        rcases List.mem_cons.1 hm with hm | hm
        · cases hm
          exact ⟨fun e he => (d₁ e he).mono s₂.le, fun he => let ⟨i, hi, hr⟩ := b₁ he; ⟨i, hi, hr.mono s₂.le⟩⟩
        · exact d₂ id' rs' hm
    | _ => exact skip (by simp) h

/-! ## Termination -/

/-- Ended having forgotten no visited object, or with an acceptable panic. -/
def Good (P : String → Prop) (st : TagState) (r : Except Stop TagState) : Prop :=
  (∃ st', r = .ok st' ∧ ∀ o ∈ st.visited, o ∈ st'.visited) ∨ ∃ loc, P loc ∧ r = .error (.panic loc)

/-- Tracking ends well. -/
def RunGood (P : String → Prop) (env : Env) (f : FnId) (body : List Node) (fuel : Nat) : Prop :=
  ∀ visited i, (∃ r, run env (env.func f) body none fuel visited i = .ok r ∧ ∀ o ∈ visited, o ∈ r.visited) ∨
    ∃ loc, P loc ∧ run env (env.func f) body none fuel visited i = .error (.panic loc)

theorem runGood_any (hf : Analyse.bound env ≤ fuel) : RunGood (fun _ => True) env f body fuel := by
  intro visited i
  rcases run_stops (env := env) (function := env.func f) (body := body) (param := none)
    (show enough env ≤ fuel by unfold Analyse.bound at hf; unfold enough; omega) visited i with h | ⟨loc, h⟩
  · exact .inl h
  · exact .inr ⟨loc, trivial, h⟩

theorem runGood_none (hb : BodyOk body) (hf : Analyse.bound env ≤ fuel) : RunGood (fun _ => False) env f body fuel := by
  intro visited i
  have := findSpread_fine (env := env) (function := env.func f) (body := body) (param := none)
    (P := fun _ => False) (.inl hb) fuel i ⟨visited, [], [], [], []⟩
    (Nat.lt_of_lt_of_le (remaining_lt_enough _) (by unfold Analyse.bound at hf; unfold enough; omega))
  unfold run
  cases h : findSpread env (env.func f) body none fuel i ⟨visited, [], [], [], []⟩ with
  | ok r => rw [h] at this; exact .inl ⟨r, rfl, this⟩
  | error e => rw [h] at this; exact this.elim

variable {P : String → Prop}

theorem returnedExpression_good {taint : Ident → TagState → Except Stop TagState} {st : TagState}
    (ht : ∀ i, Good P st (taint i st)) (e : Node) : Good P st (returnedExpression env receiver taint e st) := by
  unfold returnedExpression
  split
  · split
    · refine .inl ⟨_, rfl, fun o ho => ?_⟩
      split <;> exact ho
    · exact .inl ⟨_, rfl, fun _ h => h⟩
  · split
    · split
      · exact .inl ⟨_, rfl, fun _ h => h⟩
      · refine .inl ⟨_, rfl, fun o ho => ?_⟩
        split <;> exact ho
    · split
      · exact ht _
      · exact .inl ⟨_, rfl, fun _ h => h⟩

theorem returnedExpressions_good {expr : Node → TagState → Except Stop TagState} : ∀ (es : List Node) (st : TagState),
    (∀ st', (∀ o ∈ st.visited, o ∈ st'.visited) → ∀ e, Good P st' (expr e st')) → Good P st (returnedExpressions expr es st) := by
  intro es
  induction es with
  | nil => intro st _; exact .inl ⟨_, rfl, fun _ h => h⟩
  | cons e es ih =>
    intro st h
    simp only [returnedExpressions, bind, Except.bind]
    rcases h st (fun _ h => h) e with ⟨st₁, h₁, hv⟩ | ⟨loc, hl, h₁⟩
    · rw [h₁]
      rcases ih st₁ (fun st' hst' => h st' fun o ho => hst' o (hv o ho)) with ⟨st₂, h₂, hv₂⟩ | ⟨loc, hl, h₂⟩
      · exact .inl ⟨st₂, h₂, fun o ho => hv₂ o (hv o ho)⟩
      · exact .inr ⟨loc, hl, h₂⟩
    · rw [h₁]; exact .inr ⟨loc, hl, rfl⟩

theorem identTaint_good (hrun : RunGood P env f body fuel) (hf : Analyse.bound env ≤ fuel) : ∀ (depth : Nat) (i : Ident) (st : TagState),
    Analyse.left env st.visited < depth → Good P st (identTaint env f body receiver fuel depth i st) := by
  intro depth
  induction depth with
  | zero => intro _ _ h; omega
  | succ depth ih =>
    intro i st hd
    have hen : enough env ≤ fuel := by unfold Analyse.bound at hf; unfold enough; omega
    simp only [identTaint, bind, Except.bind]
    rcases hrun st.visited i with ⟨t, ht, hv⟩ | ⟨loc, hl, ht⟩
    · simp only [ht]
      rcases run_progress hen ht with ⟨h1, h2, h3⟩ | ⟨o, ho, hno, hnew⟩
      · rw [h1]; exact .inl ⟨_, rfl, hv⟩
      · have hlt : Analyse.left env t.visited < depth := by
          have h1 : Analyse.left env t.visited ≤ Analyse.left env (st.visited ++ [o]) := by
            refine Analyse.left_le fun o' ho' => ?_
            simp only [List.mem_append, List.mem_singleton] at ho'
            rcases ho' with ho' | rfl
            · exact hv o' ho'
            · exact hnew
          have h2 := remaining_lt (env := env) (param := none) (st := ⟨st.visited, [], [], [], []⟩) ho hno
          unfold Analyse.left at *
          simp only at h2
          omega
        rcases returnedExpressions_good (expr := returnedExpression env receiver (identTaint env f body receiver fuel depth))
          t.expressions ({ st with
            visited := t.visited
            diags := st.diags ++ t.outOfScope.map (fun i => (⟨i.id, .outOfScope⟩ : TagDiag)) ++
              t.destructs.map (fun d => ⟨d.source.id, .destructured d.target.name⟩) } : TagState)
          (fun st' hst' e => returnedExpression_good (fun j => ih j st' (Nat.lt_of_le_of_lt (Analyse.left_le hst') hlt)) e)
          with ⟨st₂, h₂, hv₂⟩ | ⟨loc, hl, h₂⟩
        · exact .inl ⟨st₂, h₂, fun o ho => hv₂ o (hv o ho)⟩
        · exact .inr ⟨loc, hl, h₂⟩
    · simp only [ht]; exact .inr ⟨loc, hl, rfl⟩

theorem returnStmts_good (hrun : RunGood P env f body fuel) (hf : Analyse.bound env ≤ fuel) : ∀ (ns : List Node)
    (st : TagState), ((∀ loc, P loc) ∨ ∀ id rs, .ret id rs ∈ ns → (∃ e, rs = [e]) ∨ (rs = [] ∧ ∃ i, NamedResult env f i)) →
    Good P st (returnStmts env f body receiver fuel ns st) := by
  intro ns
  induction ns with
  | nil => intro st _; exact .inl ⟨_, rfl, fun _ h => h⟩
  | cons n ns ih =>
    intro st hok
    have hok' := hok.imp (fun h => h) (fun h id rs hm => h id rs (List.mem_cons_of_mem _ hm))
    cases n with
    | ret id rs =>
      have ht : ∀ i, Good P st (identTaint env f body receiver fuel fuel i st) := fun i =>
        identTaint_good hrun hf fuel i st (Nat.lt_of_lt_of_le (Analyse.left_lt_bound _) hf)
      have : Good P st (returnStmt env f body receiver fuel rs st) := by
        unfold returnStmt
        split
        · simp only [bind, Except.bind]
          rcases hok with hok | hok
          · unfold namedResult
            split
            · rename_i hres
              split at hres
              · split at hres
                · cases hres
                · cases hres; exact .inr ⟨_, hok _, rfl⟩
              · cases hres; exact .inr ⟨_, hok _, rfl⟩
            · exact ht _
          · rcases hok id [] (by simp) with ⟨e, he⟩ | ⟨_, i, t, hi⟩
            · cases he
            · simp only [namedResult, hi]
              exact ht _
        · exact returnedExpression_good ht _
        · rename_i h0 h1
          rcases hok with hok | hok
          · exact .inr ⟨_, hok _, rfl⟩
          · rcases hok id rs (by simp) with ⟨e, he⟩ | ⟨he, _⟩
            · exact absurd he (h1 e)
            · exact absurd he h0
      simp only [returnStmts, bind, Except.bind]
      rcases this with ⟨st₁, h₁, hv⟩ | ⟨loc, hl, h₁⟩
      · rw [h₁]
        rcases ih st₁ hok' with ⟨st₂, h₂, hv₂⟩ | ⟨loc, hl, h₂⟩
        · exact .inl ⟨st₂, h₂, fun o ho => hv₂ o (hv o ho)⟩
        · exact .inr ⟨loc, hl, h₂⟩
      · rw [h₁]; exact .inr ⟨loc, hl, rfl⟩
    | _ => exact ih st hok'

end CodeMethod
end Serum
