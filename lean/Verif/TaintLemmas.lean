import Verif.Spec.FlowSpec

/-! # Variable tracking meets its specification -/

namespace Serum
namespace Taint
open Flow

variable {env : Env} {function : FuncDef} {body : List Node} {param : Option ObjId}

theorem outside_iff (i : Ident) :
    isIdentOriginOutsideFunctionScope env function i = false ↔ Inside env function i := by
  unfold isIdentOriginOutsideFunctionScope Inside
  by_cases hn : i.name = b!"nil"
  · simp [hn]
  · simp only [hn, if_false, false_or]
    cases ho : i.obj with
    | none => simp
    | some o =>
      simp only [Option.some.injEq, exists_eq_left', startPos, Bool.or_eq_false_iff, decide_eq_false_iff_not]
      omega

/-- All lists of the state only grow. -/
structure Ext (st st' : TaintState) : Prop where
  visited : ∀ o ∈ st.visited, o ∈ st'.visited
  blocked : ∀ o ∈ st.blocked, o ∈ st'.blocked
  expressions : ∀ e ∈ st.expressions, e ∈ st'.expressions
  destructs : ∀ d ∈ st.destructs, d ∈ st'.destructs
  outOfScope : ∀ i ∈ st.outOfScope, i ∈ st'.outOfScope

theorem Ext.refl (st : TaintState) : Ext st st := ⟨fun _ h => h, fun _ h => h, fun _ h => h, fun _ h => h, fun _ h => h⟩

theorem Ext.trans {a b c : TaintState} (h : Ext a b) (h' : Ext b c) : Ext a c :=
  ⟨fun o ho => h'.1 o (h.1 o ho), fun o ho => h'.2 o (h.2 o ho), fun o ho => h'.3 o (h.3 o ho),
   fun o ho => h'.4 o (h.4 o ho), fun o ho => h'.5 o (h.5 o ho)⟩

variable (env function body param) in
/-- An identifier has been followed or reported. -/
def Followed (st : TaintState) (i : Ident) (y : ObjId) : Prop :=
  (Local env function body param i → i.name ≠ b!"nil" → y ∈ st.visited) ∧
  (¬ Local env function body param i → i ∈ st.outOfScope)

variable (env function body param) in
/-- An assigned expression has been taken into account. -/
def Handled (st : TaintState) (e : Node) : Prop :=
  (∀ i y, VarUse env e i y → Followed env function body param st i y) ∧
  ((¬ ∃ i y, VarUse env e i y) → e.unparen ∈ st.expressions)

variable (env function body param) in
/-- Everything assigned to `o` has been taken into account. -/
def Done (st : TaintState) (o : ObjId) : Prop :=
  (∀ e, Source env body o e → Handled env function body param st e) ∧
  (∀ d, Destructured env body o d → d ∈ st.destructs)

variable (env function body param) in
/-- Everything assigned to objects visited since `st` has been taken into account. -/
def NewDone (st st' : TaintState) : Prop :=
  ∀ o ∈ st'.visited, o ∉ st.visited → Done env function body param st' o

theorem Followed.mono {st st' : TaintState} (h : Ext st st') {i y}
    (hf : Followed env function body param st i y) : Followed env function body param st' i y :=
  ⟨fun a b => h.visited _ (hf.1 a b), fun a => h.outOfScope _ (hf.2 a)⟩

theorem Handled.mono {st st' : TaintState} (h : Ext st st') {e}
    (hf : Handled env function body param st e) : Handled env function body param st' e :=
  ⟨fun i y hv => (hf.1 i y hv).mono h, fun hn => h.expressions _ (hf.2 hn)⟩

theorem Done.mono {st st' : TaintState} (h : Ext st st') {o}
    (hf : Done env function body param st o) : Done env function body param st' o :=
  ⟨fun e he => (hf.1 e he).mono h, fun d hd => h.destructs _ (hf.2 d hd)⟩

theorem NewDone.refl (st : TaintState) : NewDone env function body param st st := fun _ h h' => absurd h h'

theorem NewDone.trans {a b c : TaintState} (h : NewDone env function body param a b)
    (hbc : Ext b c) (h' : NewDone env function body param b c) : NewDone env function body param a c := by
  intro o hc ha
  by_cases hb : o ∈ b.visited
  · exact (h o hb ha).mono hbc
  · exact h' o hc hb

variable (env body) in
/-- All parameters of literals the initial values of `y` lead to are blocked. -/
def Ready (st : TaintState) (y : ObjId) : Prop := ∀ p, InitChain env y p → LitParam body p → p ∈ st.blocked

theorem Ready.mono {st st' : TaintState} (h : Ext st st') {y} (hr : Ready env body st y) :
    Ready env body st' y := fun p hc hl => h.blocked p (hr p hc hl)

variable (env function body param) in
/-- What is known of the state: everything in it stems from tracked variables. -/
structure Sound (seen : List ObjId) (root : Ident) (st : TaintState) : Prop where
  visited : ∀ o ∈ st.visited, o ∈ seen ∨ Tracked env function body param seen root o
  seenVisited : ∀ o ∈ seen, o ∈ st.visited
  blocked : ∀ o ∈ st.blocked, LitParam body o
  expressions : ∀ e ∈ st.expressions, ∃ x e', Tracked env function body param seen root x ∧
    Source env body x e' ∧ (¬ ∃ i y, VarUse env e' i y) ∧ e = e'.unparen
  destructs : ∀ d ∈ st.destructs, ∃ x, Tracked env function body param seen root x ∧ Destructured env body x d
  outOfScope : ∀ j ∈ st.outOfScope, ¬ Local env function body param j ∧
    (j = root ∨ ∃ x e y, Tracked env function body param seen root x ∧ Source env body x e ∧ VarUse env e j y)

variable (env function body param) in
/-- An identifier the search may follow. -/
def Origin (seen : List ObjId) (root : Ident) (i : Ident) (y : ObjId) : Prop :=
  (i = root ∧ root.obj = some y) ∨
  ∃ x e, Tracked env function body param seen root x ∧ Source env body x e ∧ VarUse env e i y

theorem Origin.tracked {seen : List ObjId} {root i : Ident} {y : ObjId}
    (h : Origin env function body param seen root i y) (hn : i.name ≠ b!"nil")
    (hl : Local env function body param i) (hs : y ∉ seen) : Tracked env function body param seen root y := by
  rcases h with ⟨rfl, ho⟩ | ⟨x, e, ht, hsrc, hv⟩
  · exact .start ho hn hl hs
  · exact .step ht hsrc hv hn hl hs

variable (env function body param) in
/-- What following an identifier achieves. -/
def FollowSpec (seen : List ObjId) (root : Ident) (follow : Ident → TaintState → Except Stop TaintState) : Prop :=
  ∀ i y st st', i.obj = some y → Ready env body st y → Origin env function body param seen root i y →
    Sound env function body param seen root st → follow i st = .ok st' →
    Ext st st' ∧ NewDone env function body param st st' ∧ Followed env function body param st' i y ∧
    Sound env function body param seen root st'

section
variable {seen : List ObjId} {root : Ident} {follow : Ident → TaintState → Except Stop TaintState}

theorem not_var_of_none {e : Node} {i : Ident} (he : e.unparen = .ident i) (ho : i.obj = none) :
    ¬ ∃ j y, VarUse env e j y := by
  rintro ⟨j, y, h1, h2, _⟩
  rw [he] at h1; cases h1; rw [ho] at h2; cases h2

theorem processAssignedExpr_spec (hf : FollowSpec env function body param seen root follow)
    {x : ObjId} {e : Node} (hx : Tracked env function body param seen root x) (he : Source env body x e)
    {st st' : TaintState} (hr : ∀ i y, VarUse env e i y → Ready env body st y)
    (hs : Sound env function body param seen root st)
    (h : processAssignedExpr env follow e st = .ok st') :
    Ext st st' ∧ NewDone env function body param st st' ∧ Handled env function body param st' e ∧
    Sound env function body param seen root st' := by
  -- adding a plain expression
  have add : (¬ ∃ i y, VarUse env e i y) → st' = { st with expressions := st.expressions ++ [e.unparen] } →
      Ext st st' ∧ NewDone env function body param st st' ∧ Handled env function body param st' e ∧
      Sound env function body param seen root st' := by
    rintro hn rfl
    refine ⟨⟨fun _ h => h, fun _ h => h, fun _ h => by simp [h], fun _ h => h, fun _ h => h⟩,
      fun o h h' => absurd h h', ⟨fun i y hv => absurd ⟨i, y, hv⟩ hn, fun _ => by simp⟩,
      ⟨hs.1, hs.2, hs.3, fun e' he' => ?_, hs.5, hs.6⟩⟩
    simp only [List.mem_append, List.mem_singleton] at he'
    rcases he' with he' | rfl
    · exact hs.4 e' he'
    · exact ⟨x, e, hx, he, hn, rfl⟩
  unfold processAssignedExpr at h
  cases hu : e.unparen with
  | ident i =>
    simp only [hu] at h
    cases ho : i.obj with
    | none =>
      simp only [ho] at h
      exact add (not_var_of_none hu ho) (by rw [hu]; cases h; rfl)
    | some y =>
      simp only [ho] at h
      by_cases hk : (env.object y).kind = .var
      · simp only [hk, if_true] at h
        have hv : VarUse env e i y := ⟨hu, ho, hk⟩
        obtain ⟨h1, h2, h3, h4⟩ := hf i y st st' ho (hr i y hv) (.inr ⟨x, e, hx, he, hv⟩) hs h
        refine ⟨h1, h2, ⟨fun j z hv' => ?_, fun hn => absurd ⟨i, y, hv⟩ hn⟩, h4⟩
        have : j = i := by have := hv'.1; rw [hu] at this; cases this; rfl
        subst this
        have : z = y := by have := hv'.2.1; rw [ho] at this; cases this; rfl
        subst this
        exact h3
      · simp only [hk, if_false] at h
        refine add ?_ (by rw [hu]; cases h; rfl)
        rintro ⟨j, z, h1, h2, h3⟩
        rw [hu] at h1; cases h1
        rw [ho] at h2; cases h2
        exact hk h3
  | _ =>
    simp only [hu] at h
    refine add ?_ (by rw [hu]; cases h; rfl)
    rintro ⟨j, z, h1, _⟩
    rw [hu] at h1; cases h1

theorem initialised_unique {x : ObjId} {names : List Ident} {values : List Node} {e : Node}
    (hd : (env.object x).decl = .valueSpec names values)
    {pre : List Ident} {n : Ident} {post : List Ident} (hnames : names = pre ++ n :: post)
    (hpre : ∀ m ∈ pre, m.obj ≠ some x) (hn : n.obj = some x) (h : InitialisedBy env x e) :
    values.length = names.length ∧ values[pre.length]? = some e := by
  obtain ⟨pre', n', post', values', hd', hpre', hn', hlen, hget⟩ := h
  rw [hd] at hd'
  cases hd'
  have : pre.length = pre'.length := by
    rcases Nat.lt_trichotomy pre.length pre'.length with hlt | heq | hgt
    · exfalso
      have h1 : (pre' ++ n' :: post')[pre.length]? = some n := by rw [hnames]; simp
      rw [List.getElem?_append_left hlt] at h1
      exact hpre' n (List.mem_of_getElem? h1) hn
    · exact heq
    · exfalso
      have h1 : (pre ++ n :: post)[pre'.length]? = some n' := by rw [← hnames]; simp
      rw [List.getElem?_append_left hgt] at h1
      exact hpre n' (List.mem_of_getElem? h1) hn'
  rw [this]
  exact ⟨hlen, hget⟩

theorem Sound.addDestruct {st : TaintState} (hs : Sound env function body param seen root st) {x : ObjId}
    (hx : Tracked env function body param seen root x) {d : Destruct} (hd : Destructured env body x d) :
    Sound env function body param seen root { st with destructs := st.destructs ++ [d] } := by
  refine ⟨hs.1, hs.2, hs.3, hs.4, fun d' hd' => ?_, hs.6⟩
  simp only [List.mem_append, List.mem_singleton] at hd'
  rcases hd' with hd' | rfl
  · exact hs.5 d' hd'
  · exact ⟨x, hx, hd⟩

theorem ext_addDestruct (st : TaintState) (d : Destruct) :
    Ext st { st with destructs := st.destructs ++ [d] } :=
  ⟨fun _ h => h, fun _ h => h, fun _ h => h, fun _ h => by simp [h], fun _ h => h⟩

/-- What processing the initial value of `x` achieves. -/
theorem processInitValue_spec (hf : FollowSpec env function body param seen root follow)
    {x : ObjId} (hx : Tracked env function body param seen root x) {st st' : TaintState}
    (hr : Ready env body st x) (hs : Sound env function body param seen root st)
    (h : processInitValue env follow x st = .ok st') :
    Ext st st' ∧ NewDone env function body param st st' ∧ Sound env function body param seen root st' ∧
    (∀ e, InitialisedBy env x e → Handled env function body param st' e) ∧
    (∀ d : Destruct, ∀ pre post values, (env.object x).decl = .valueSpec (pre ++ d.target :: post) values →
      (∀ m ∈ pre, m.obj ≠ some x) → d.target.obj = some x → values.length ≠ (pre ++ d.target :: post).length →
      d.position = pre.length → values.head? = some d.source → d ∈ st'.destructs) := by
  have hready : ∀ e, InitialisedBy env x e → ∀ i y, VarUse env e i y → Ready env body st y :=
    fun e he i y hv p hc hl => hr p (.step he hv hc) hl
  unfold processInitValue at h
  cases hd : (env.object x).decl with
  | valueSpec names values =>
    simp only [hd] at h
    by_cases hz : values.length = 0
    · simp only [hz, if_true] at h
      cases h
      have hnil : values = [] := List.length_eq_zero_iff.1 hz
      subst hnil
      refine ⟨.refl _, .refl _, hs, ?_, ?_⟩
      · rintro e ⟨pre, n, post, values, hd', _, _, _, hg⟩
        rw [hd] at hd'; cases hd'; simp at hg
      · intro d pre post values hd' _ _ _ _ hh
        cases hd'; simp at hh
    · simp only [hz, if_false] at h
      have loop : ∀ (ns pre : List Ident), names = pre ++ ns → (∀ m ∈ pre, m.obj ≠ some x) →
          findValueInSpec env follow x names values pre.length ns st = .ok st' →
          Ext st st' ∧ NewDone env function body param st st' ∧ Sound env function body param seen root st' ∧
          (∀ e, InitialisedBy env x e → Handled env function body param st' e) ∧
          (∀ d : Destruct, ∀ pre post values', (Decl.valueSpec names values) = .valueSpec (pre ++ d.target :: post) values' →
            (∀ m ∈ pre, m.obj ≠ some x) → d.target.obj = some x → values'.length ≠ (pre ++ d.target :: post).length →
            d.position = pre.length → values'.head? = some d.source → d ∈ st'.destructs) := by
        intro ns
        induction ns with
        | nil =>
          intro pre hn hpre h
          simp only [findValueInSpec] at h
          cases h
          simp only [List.append_nil] at hn
          refine ⟨.refl _, .refl _, hs, ?_, ?_⟩
          · rintro e ⟨pre', n, post, values', hd', _, hn', _, _⟩
            rw [hd] at hd'; cases hd'
            exact absurd hn' (hpre n (by rw [← hn]; simp))
          · intro d pre' post values' hd' _ ht
            cases hd'
            exact absurd ht (hpre d.target (by rw [← hn]; simp))
        | cons n ns ih =>
          intro pre hn hpre h
          unfold findValueInSpec at h
          by_cases hno : n.obj = some x
          · simp only [hno, if_true] at h
            by_cases hlen : values.length = names.length
            · simp only [hlen, if_true] at h
              cases hv : values[pre.length]? with
              | none => simp [hv] at h
              | some v =>
                simp only [hv] at h
                have hinit : InitialisedBy env x v :=
                  ⟨pre, n, ns, values, by rw [hd, hn], hpre, hno, by rw [hlen, hn], hv⟩
                obtain ⟨h1, h2, h3, h4⟩ := processAssignedExpr_spec hf hx (.inl hinit) (hready v hinit) hs h
                refine ⟨h1, h2, h4, ?_, ?_⟩
                · intro e he
                  have := (initialised_unique hd hn hpre hno he).2
                  rw [hv] at this
                  cases this
                  exact h3
                · intro d pre' post values' hd' _ _ hne
                  cases hd'
                  exact absurd hlen hne
            · simp only [hlen, if_false] at h
              cases hvs : values with
              | nil => simp [hvs] at hz
              | cons v vs =>
                simp only [hvs] at h
                cases h
                refine ⟨ext_addDestruct _ _, fun o h h' => absurd h h', hs.addDestruct hx ?_, ?_, ?_⟩
                · refine .inl ⟨pre, ns, values, by rw [hd, hn], hpre, hno, by rw [← hn]; exact hlen, rfl, by rw [hvs]; rfl⟩
                · intro e he
                  exact absurd (initialised_unique hd hn hpre hno he).1 hlen
                · intro d pre' post values' hd' hpre' ht hne hp hh
                  cases hd'
                  have : pre.length = pre'.length := by
                    rcases Nat.lt_trichotomy pre.length pre'.length with hlt | heq | hgt
                    · exfalso
                      have h1 : (pre' ++ d.target :: post)[pre.length]? = some n := by rw [hn]; simp
                      rw [List.getElem?_append_left hlt] at h1
                      exact hpre' n (List.mem_of_getElem? h1) hno
                    · exact heq
                    · exfalso
                      have h1 : (pre ++ n :: ns)[pre'.length]? = some d.target := by rw [← hn]; simp
                      rw [List.getElem?_append_left hgt] at h1
                      exact hpre d.target (List.mem_of_getElem? h1) ht
                  have hpp := List.append_inj hn this.symm
                  have hn' : d.target = n := by have := hpp.2; cases this; rfl
                  simp only [List.head?_cons, Option.some.injEq] at hh
                  have : d = ⟨pre.length, n, v⟩ := by
                    cases d; simp only at *; simp [hp, this, hn', hh]
                  simp [this]
          · simp only [hno, if_false] at h
            have := ih (pre ++ [n]) (by simp [hn])
              (fun m hm => by
                simp only [List.mem_append, List.mem_singleton] at hm
                rcases hm with hm | rfl
                · exact hpre m hm
                · exact hno)
            rw [show (pre ++ [n]).length = pre.length + 1 by simp] at this
            exact this h
      exact loop names [] rfl (by simp) h
  | _ =>
    simp only [hd] at h
    cases h
    refine ⟨.refl _, .refl _, hs, ?_, ?_⟩
    · rintro e ⟨pre, n, post, values, hd', _⟩
      rw [hd] at hd'; cases hd'
    · intro d pre post values hd'
      cases hd'

/-- What processing one assignment achieves, for the entries from index `pre.length` on. -/
theorem processAssignment_spec (hf : FollowSpec env function body param seen root follow)
    {x : ObjId} (hx : Tracked env function body param seen root x) {id : NodeId} {lhs rhs : List Node}
    (hocc : Occurs (.assign id lhs rhs) body) :
    ∀ (ls pre : List Node) {st st' : TaintState}, lhs = pre ++ ls →
      (∀ r ∈ rhs, ∀ i y, VarUse env r i y → Ready env body st y) →
      Sound env function body param seen root st →
      processAssignment env follow x lhs rhs pre.length ls st = .ok st' →
      Ext st st' ∧ NewDone env function body param st st' ∧ Sound env function body param seen root st' ∧
      (∀ k l t, pre.length ≤ k → lhs[k]? = some l → l.unparen = .ident t → t.obj = some x →
        (lhs.length = rhs.length → ∀ e, rhs[k]? = some e → Handled env function body param st' e) ∧
        (lhs.length ≠ rhs.length → ∀ src, rhs.head? = some src → ⟨k, t, src⟩ ∈ st'.destructs)) := by
  intro ls
  induction ls with
  | nil =>
    intro pre st st' hl _ hs h
    simp only [processAssignment] at h
    cases h
    refine ⟨.refl _, .refl _, hs, fun k l t hk hg => ?_⟩
    rw [hl, List.append_nil] at hg
    exact absurd (List.getElem?_eq_some_iff.1 hg).1 (by omega)
  | cons l ls ih =>
    intro pre st st' hl hr hs h
    have hget : lhs[pre.length]? = some l := by rw [hl]; simp
    -- skipping the entry
    have skip : ∀ {st₁ : TaintState}, Ext st st₁ → NewDone env function body param st st₁ →
        Sound env function body param seen root st₁ →
        (∀ t, l.unparen = .ident t → t.obj = some x →
          (lhs.length = rhs.length → ∀ e, rhs[pre.length]? = some e → Handled env function body param st₁ e) ∧
          (lhs.length ≠ rhs.length → ∀ src, rhs.head? = some src → ⟨pre.length, t, src⟩ ∈ st₁.destructs)) →
        processAssignment env follow x lhs rhs (pre.length + 1) ls st₁ = .ok st' →
        Ext st st' ∧ NewDone env function body param st st' ∧ Sound env function body param seen root st' ∧
        (∀ k l t, pre.length ≤ k → lhs[k]? = some l → l.unparen = .ident t → t.obj = some x →
          (lhs.length = rhs.length → ∀ e, rhs[k]? = some e → Handled env function body param st' e) ∧
          (lhs.length ≠ rhs.length → ∀ src, rhs.head? = some src → ⟨k, t, src⟩ ∈ st'.destructs)) := by
      intro st₁ he hn hs₁ hthis h
      have := ih (pre ++ [l]) (st := st₁) (st' := st') (by simp [hl])
        (fun r hr' i y hv => (hr r hr' i y hv).mono he) hs₁
      simp only [List.length_append, List.length_singleton] at this
      obtain ⟨e1, e2, e3, e4⟩ := this h
      refine ⟨he.trans e1, hn.trans e1 e2, e3, fun k l' t hk hg hu ho => ?_⟩
      rcases Nat.eq_or_lt_of_le hk with rfl | hk
      · rw [hget] at hg
        cases hg
        obtain ⟨a, b⟩ := hthis t hu ho
        exact ⟨fun hlen e he' => (a hlen e he').mono e1, fun hlen src hsrc => e1.destructs _ (b hlen src hsrc)⟩
      · exact e4 k l' t hk hg hu ho
    unfold processAssignment at h
    cases hu : l.unparen with
    | ident t =>
      simp only [hu] at h
      by_cases ho : t.obj = some x
      · simp only [ho, if_true] at h
        by_cases hlen : lhs.length = rhs.length
        · simp only [hlen, ne_eq, not_true_eq_false, if_false] at h
          cases hg : rhs[pre.length]? with
          | none => simp [hg] at h
          | some r =>
            simp only [hg] at h
            cases hp : processAssignedExpr env follow r st with
            | error e => simp [hp] at h
            | ok st₁ =>
              simp only [hp] at h
              have hsrc : Source env body x r :=
                .inr ⟨id, lhs, rhs, hocc, hlen, pre.length, l, t, hget, hu, ho, hg⟩
              obtain ⟨a1, a2, a3, a4⟩ :=
                processAssignedExpr_spec hf hx hsrc (hr r (List.mem_of_getElem? hg)) hs hp
              refine skip a1 a2 a4 (fun t' _ _ => ⟨fun _ e he => ?_, fun hne => absurd hlen hne⟩) h
              rw [hg] at he; cases he
              exact a3
        · simp only [ne_eq, hlen, not_false_eq_true, if_true] at h
          cases hrhs : rhs with
          | nil => simp [hrhs] at h
          | cons r rs =>
            rw [hrhs] at h
            simp only at h
            rw [← hrhs] at h
            rw [← hrhs]
            refine skip (ext_addDestruct st ⟨pre.length, t, r⟩) (fun o h h' => absurd h h')
              (hs.addDestruct hx (.inr ⟨id, lhs, rhs, hocc, hlen, l, hget, hu, ho, by rw [hrhs]; rfl⟩)) ?_ h
            intro t' hu' _
            rw [hu] at hu'; cases hu'
            refine ⟨fun he => absurd he hlen, fun _ src hsrc => ?_⟩
            rw [hrhs] at hsrc
            simp only [List.head?_cons, Option.some.injEq] at hsrc
            subst hsrc
            simp
      · simp only [ho, if_false] at h
        exact skip (.refl _) (.refl _) hs (fun t' hu' ho' => by rw [hu] at hu'; cases hu'; exact absurd ho' ho) h
    | _ =>
      simp only [hu] at h
      exact skip (.refl _) (.refl _) hs (fun t' hu' _ => by rw [hu] at hu'; cases hu') h

theorem blockParams_spec : ∀ (is : List Ident) {st st' : TaintState}, blockParams is st = .ok st' →
    st'.visited = st.visited ∧ st'.expressions = st.expressions ∧ st'.destructs = st.destructs ∧
    st'.outOfScope = st.outOfScope ∧
    (∀ o, o ∈ st'.blocked ↔ o ∈ st.blocked ∨ ∃ n ∈ is, n.obj = some o) := by
  intro is
  induction is with
  | nil => intro st st' h; simp only [blockParams] at h; cases h; simp
  | cons i is ih =>
    intro st st' h
    unfold blockParams at h
    cases ho : i.obj with
    | none => simp [ho] at h
    | some o =>
      simp only [ho] at h
      obtain ⟨h1, h2, h3, h4, h5⟩ := ih h
      refine ⟨h1, h2, h3, h4, fun o' => ?_⟩
      rw [h5]
      simp only [List.mem_append, List.mem_cons, List.not_mem_nil, or_false, exists_eq_or_imp, ho, Option.some.injEq]
      rw [eq_comm (a := o), or_assoc]

/-- What looking at the nodes of the body achieves, from some point on. -/
theorem processNodes_spec (hscope : LitsBeforeUses env body)
    (hf : FollowSpec env function body param seen root follow)
    {x : ObjId} (hx : Tracked env function body param seen root x) :
    ∀ (ns pre : List Node) {st st' : TaintState}, Node.inspectList (fun _ => true) body = pre ++ ns →
      (∀ id fn type b, Node.funcLit id fn type b ∈ pre → ∀ n ∈ type.params.flatMap Field.names, ∀ o,
        n.obj = some o → o ∈ st.blocked) →
      Sound env function body param seen root st →
      processNodes env follow x ns st = .ok st' →
      Ext st st' ∧ NewDone env function body param st st' ∧ Sound env function body param seen root st' ∧
      (∀ id lhs rhs, Node.assign id lhs rhs ∈ ns → ∀ k l t, lhs[k]? = some l → l.unparen = .ident t →
        t.obj = some x →
        (lhs.length = rhs.length → ∀ e, rhs[k]? = some e → Handled env function body param st' e) ∧
        (lhs.length ≠ rhs.length → ∀ src, rhs.head? = some src → ⟨k, t, src⟩ ∈ st'.destructs)) := by
  intro ns
  induction ns with
  | nil =>
    intro pre st st' _ _ hs h
    simp only [processNodes] at h
    cases h
    exact ⟨.refl _, .refl _, hs, by simp⟩
  | cons n ns ih =>
    intro pre st st' hall hblk hs h
    have hocc : Occurs n body := (mem_inspectList _ _ _).1 (by rw [hall]; simp)
    have next : ∀ {st₁ : TaintState}, Ext st st₁ → NewDone env function body param st st₁ →
        Sound env function body param seen root st₁ →
        (∀ id fn type b, n = Node.funcLit id fn type b → ∀ m ∈ type.params.flatMap Field.names, ∀ o,
          m.obj = some o → o ∈ st₁.blocked) →
        (∀ id lhs rhs, n = Node.assign id lhs rhs → ∀ k l t, lhs[k]? = some l → l.unparen = .ident t →
          t.obj = some x →
          (lhs.length = rhs.length → ∀ e, rhs[k]? = some e → Handled env function body param st₁ e) ∧
          (lhs.length ≠ rhs.length → ∀ src, rhs.head? = some src → ⟨k, t, src⟩ ∈ st₁.destructs)) →
        processNodes env follow x ns st₁ = .ok st' →
        Ext st st' ∧ NewDone env function body param st st' ∧ Sound env function body param seen root st' ∧
        (∀ id lhs rhs, Node.assign id lhs rhs ∈ n :: ns → ∀ k l t, lhs[k]? = some l → l.unparen = .ident t →
          t.obj = some x →
          (lhs.length = rhs.length → ∀ e, rhs[k]? = some e → Handled env function body param st' e) ∧
          (lhs.length ≠ rhs.length → ∀ src, rhs.head? = some src → ⟨k, t, src⟩ ∈ st'.destructs)) := by
      intro st₁ he hn hs₁ hb₁ hthis h
      obtain ⟨e1, e2, e3, e4⟩ := ih (pre ++ [n]) (st := st₁) (by simp [hall])
        (fun id fn type b hm m hm' o ho => by
          simp only [List.mem_append, List.mem_singleton] at hm
          rcases hm with hm | hm
          · exact he.blocked o (hblk id fn type b hm m hm' o ho)
          · exact hb₁ id fn type b hm.symm m hm' o ho) hs₁ h
      refine ⟨he.trans e1, hn.trans e1 e2, e3, fun id lhs rhs hm k l t hg hu ho => ?_⟩
      rcases List.mem_cons.1 hm with hm | hm
      · obtain ⟨a, b⟩ := hthis id lhs rhs hm.symm k l t hg hu ho
        exact ⟨fun hlen e he' => (a hlen e he').mono e1, fun hlen src hsrc => e1.destructs _ (b hlen src hsrc)⟩
      · exact e4 id lhs rhs hm k l t hg hu ho
    unfold processNodes at h
    cases n with
    | funcLit id fn type b =>
      simp only at h
      cases hb : blockParams (type.params.flatMap Field.names) st with
      | error e => simp [hb] at h
      | ok st₁ =>
        simp only [hb] at h
        obtain ⟨b1, b2, b3, b4, b5⟩ := blockParams_spec _ hb
        refine next ⟨fun o ho => b1 ▸ ho, fun o ho => (b5 o).2 (.inl ho), fun o ho => b2 ▸ ho,
          fun o ho => b3 ▸ ho, fun o ho => b4 ▸ ho⟩ (fun o ho hn => absurd (b1 ▸ ho) hn) ?_ ?_ ?_ h
        · refine ⟨b1 ▸ hs.1, b1 ▸ hs.2, fun o ho => ?_, b2 ▸ hs.4, b3 ▸ hs.5, b4 ▸ hs.6⟩
          rcases (b5 o).1 ho with ho | ⟨m, hm, ho⟩
          · exact hs.3 o ho
          · exact ⟨id, fn, type, b, hocc, m, hm, ho⟩
        · intro id' fn' type' b' he m hm o ho
          cases he
          exact (b5 o).2 (.inr ⟨m, hm, ho⟩)
        · intro _ _ _ he; cases he
    | assign id lhs rhs =>
      simp only at h
      cases hp : processAssignment env follow x lhs rhs 0 lhs st with
      | error e => simp [hp] at h
      | ok st₁ =>
        simp only [hp] at h
        have hready : ∀ r ∈ rhs, ∀ i y, VarUse env r i y → Ready env body st y := by
          intro r hr i y hv p hc hl
          obtain ⟨lid, fn, type, b, hm, m, hm', ho⟩ := hscope pre id lhs rhs ns hall r hr i y p hv hc hl
          exact hblk lid fn type b hm m hm' p ho
        obtain ⟨a1, a2, a3, a4⟩ := processAssignment_spec hf hx hocc lhs [] rfl hready hs hp
        refine next a1 a2 a3 (by intro _ _ _ _ he; cases he) ?_ h
        intro id' lhs' rhs' he k l t hg hu ho
        cases he
        exact a4 k l t (Nat.zero_le _) hg hu ho
    | _ =>
      simp only at h
      exact next (.refl _) (.refl _) hs (by intro _ _ _ _ he; cases he) (by intro _ _ _ he; cases he) h

end

theorem findSpread_spec (hscope : LitsBeforeUses env body) (seen : List ObjId) (root : Ident) :
    ∀ fuel, FollowSpec env function body param seen root (findSpread env function body param fuel) := by
  intro fuel
  induction fuel with
  | zero => intro i y st st' _ _ _ _ h; simp [findSpread] at h
  | succ fuel ih =>
    intro i y st st' ho hr horig hs h
    have hloc : Local env function body param i ↔
        ¬ ((decide (y ∈ st.blocked) || isIdentOriginOutsideFunctionScope env function i) = true ∧
          (param = none ∨ param ≠ i.obj)) := by
      have hb : y ∈ st.blocked ↔ LitParam body y := ⟨hs.3 y, fun hl => hr y (.refl y) hl⟩
      unfold Local
      rw [← outside_iff, ho]
      simp only [Option.some.injEq, forall_eq', ← hb]
      cases isIdentOriginOutsideFunctionScope env function i <;> by_cases y ∈ st.blocked <;>
        by_cases hp : param = some y <;> simp_all
    unfold findSpread at h
    simp only [ho] at h
    by_cases hc : (decide (y ∈ st.blocked) || isIdentOriginOutsideFunctionScope env function i) = true ∧
          (param = none ∨ param ≠ some y)
    · rw [if_pos hc] at h
      cases h
      have hnl : ¬ Local env function body param i := fun hl => (hloc.1 hl) (by rw [ho]; exact hc)
      refine ⟨⟨fun _ h => h, fun _ h => h, fun _ h => h, fun _ h => h, fun _ h => by simp [h]⟩,
        fun o h h' => absurd h h', ⟨fun hl => absurd hl hnl, fun _ => by simp⟩,
        ⟨hs.1, hs.2, hs.3, hs.4, hs.5, fun j hj => ?_⟩⟩
      simp only [List.mem_append, List.mem_singleton] at hj
      rcases hj with hj | rfl
      · exact hs.6 j hj
      · refine ⟨hnl, ?_⟩
        rcases horig with ⟨hi, _⟩ | ⟨x, e, h1, h2, h3⟩
        · exact .inl hi
        · exact .inr ⟨x, e, y, h1, h2, h3⟩
    · rw [if_neg hc] at h
      have hl : Local env function body param i := hloc.2 (by rw [ho]; exact hc)
      by_cases hn : i.name = b!"nil"
      · rw [if_pos hn] at h
        cases h
        exact ⟨.refl _, .refl _, ⟨fun _ hn' => absurd hn hn', fun h => absurd hl h⟩, hs⟩
      · rw [if_neg hn] at h
        by_cases hv : y ∈ st.visited
        · simp only [hv, if_true] at h
          cases h
          exact ⟨.refl _, .refl _, ⟨fun _ _ => hv, fun h => absurd hl h⟩, hs⟩
        · simp only [hv, if_false] at h
          have hx : Tracked env function body param seen root y :=
            horig.tracked hn hl (fun h => hv (hs.seenVisited y h))
          have hext : Ext st { st with visited := st.visited ++ [y] } :=
            ⟨fun _ h => by simp [h], fun _ h => h, fun _ h => h, fun _ h => h, fun _ h => h⟩
          have hs0 : Sound env function body param seen root { st with visited := st.visited ++ [y] } := by
            refine ⟨fun o ho => ?_, fun o ho => by simp [hs.2 o ho], hs.3, hs.4, hs.5, hs.6⟩
            simp only [List.mem_append, List.mem_singleton] at ho
            rcases ho with ho | rfl
            · exact hs.1 o ho
            · exact .inr hx
          cases hp : processInitValue env (findSpread env function body param fuel) y
              { st with visited := st.visited ++ [y] } with
          | error e => simp [hp] at h
          | ok st₁ =>
            simp only [hp] at h
            obtain ⟨a1, a2, a3, a4, a5⟩ := processInitValue_spec ih hx (hr.mono hext) hs0 hp
            obtain ⟨b1, b2, b3, b4⟩ := processNodes_spec hscope ih hx _ [] rfl (by simp) a3 h
            have hyv : y ∈ st'.visited := b1.visited _ (a1.visited _ (by simp))
            refine ⟨(hext.trans a1).trans b1, ?_, ⟨fun _ _ => hyv, fun h => absurd hl h⟩, b3⟩
            intro o ho' hno
            by_cases hoy : o = y
            · subst hoy
              refine ⟨fun e he => ?_, fun d hd => ?_⟩
              · rcases he with he | ⟨id, lhs, rhs, hocc, hlen, k, l, t, h1, h2, h3, h4⟩
                · exact (a4 e he).mono b1
                · exact (b4 id lhs rhs ((mem_inspectList _ _ _).2 hocc) k l t h1 h2 h3).1 hlen e h4
              · rcases hd with ⟨pre, post, values, h1, h2, h3, h4, h5, h6⟩ | ⟨id, lhs, rhs, hocc, hlen, l, h1, h2, h3, h4⟩
                · exact b1.destructs _ (a5 d pre post values h1 h2 h3 h4 h5 h6)
                · exact (b4 id lhs rhs ((mem_inspectList _ _ _).2 hocc) d.position l d.target h1 h2 h3).2 hlen d.source h4
            · by_cases ho1 : o ∈ st₁.visited
              · have := a2 o ho1 (by simp [hno, hoy])
                exact this.mono b1
              · exact b2 o ho' ho1

/-- The result of tracking a variable: exactly what the specification says. -/
theorem run_spec (hscope : LitsBeforeUses env body) {fuel : Nat} {seen : List ObjId} {i : Ident} {x : ObjId}
    (ho : i.obj = some x) (hroot : CleanRoot env body i) {r : TaintState}
    (h : run env function body param fuel seen i = .ok r) :
    (∀ o, o ∈ r.visited ↔ o ∈ seen ∨ Tracked env function body param seen i o) ∧
    (∀ e, e ∈ r.expressions ↔ ∃ x e', Tracked env function body param seen i x ∧ Source env body x e' ∧
      (¬ ∃ j y, VarUse env e' j y) ∧ e = e'.unparen) ∧
    (∀ d, d ∈ r.destructs ↔ ∃ x, Tracked env function body param seen i x ∧ Destructured env body x d) ∧
    (∀ j, j ∈ r.outOfScope ↔ ¬ Local env function body param j ∧
      (j = i ∨ ∃ x e y, Tracked env function body param seen i x ∧ Source env body x e ∧ VarUse env e j y)) := by
  have h0 : Sound env function body param seen i ⟨seen, [], [], [], []⟩ :=
    ⟨fun o ho => .inl ho, fun o ho => ho, by simp, by simp, by simp, by simp⟩
  obtain ⟨h1, h2, h3, h4⟩ := findSpread_spec hscope seen i fuel i x _ r ho
    (fun p hc hl => absurd hl (hroot x p ho hc)) (.inl ⟨rfl, ho⟩) h0 h
  have hvis : ∀ o, Tracked env function body param seen i o → o ∈ r.visited := by
    intro o ht
    induction ht with
    | start ho' hn hl _ =>
      rw [ho] at ho'; cases ho'
      exact h3.1 hl hn
    | step ht hsrc hv hn hl hns ih =>
      rename_i x y e j
      have hx : x ∉ seen := by cases ht <;> assumption
      exact (((h2 x ih hx).1 e hsrc).1 j y hv).1 hl hn
  have hnew : ∀ o, Tracked env function body param seen i o → Done env function body param r o := by
    intro o ht
    have hx : o ∉ seen := by cases ht <;> assumption
    exact h2 o (hvis o ht) hx
  refine ⟨fun o => ⟨h4.1 o, fun h => ?_⟩, fun e => ⟨h4.4 e, ?_⟩, fun d => ⟨h4.5 d, ?_⟩, fun j => ⟨h4.6 j, ?_⟩⟩
  · rcases h with h | h
    · exact h1.visited o h
    · exact hvis o h
  · rintro ⟨x, e', ht, hsrc, hn, rfl⟩
    exact ((hnew x ht).1 e' hsrc).2 hn
  · rintro ⟨x, ht, hd⟩
    exact (hnew x ht).2 d hd
  · rintro ⟨hnl, rfl | ⟨x, e, y, ht, hsrc, hv⟩⟩
    · exact h3.2 hnl
    · exact (((hnew x ht).1 e hsrc).1 j y hv).2 hnl

/-- An identifier without object is reported, unless it is `nil`. -/
theorem run_noObj {fuel : Nat} {seen : List ObjId} {i : Ident} (ho : i.obj = none) {r : TaintState}
    (h : run env function body param fuel seen i = .ok r) :
    r = ⟨seen, [], [], [], if i.name = b!"nil" then [] else [i]⟩ := by
  unfold run at h
  cases fuel with
  | zero => simp [findSpread] at h
  | succ fuel =>
    unfold findSpread isIdentOriginOutsideFunctionScope at h
    by_cases hn : i.name = b!"nil"
    · simp [ho, hn] at h ⊢
      exact h.symm
    · have hp : param = none ∨ ¬ param = none := by cases param <;> simp
      simp [ho, hn, hp] at h ⊢
      exact h.symm

end Taint
end Serum
