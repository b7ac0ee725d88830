import Verif.InterfaceLemmas

/-! # Collecting interfaces: the search over embedding interfaces -/

namespace Serum.Interfaces
open IfaceSpec

variable {env : Env} {info : Info} {decls : List IfaceDecl}

/-- The methods of `d` itself and of some of its embedded interfaces. -/
def From (env : Env) (decls : List IfaceDecl) (d : IfaceDecl) (es : List Embedded) (m : GoString) (S : CodeSet) : Prop :=
  Own env d m S ∨ ∃ e ∈ es, Contributes env decls e m S

theorem mem_embeds {es : List IfaceElement} {e : Embedded} : e ∈ embeds es ↔ .embedded e ∈ es := by
  simp only [embeds, List.mem_filterMap]
  constructor
  · rintro ⟨x, hx, h⟩
    cases x with
    | embedded e' => simp only [Option.some.injEq] at h; exact h ▸ hx
    | method m => simp at h
  · intro h; exact ⟨_, h, rfl⟩

theorem has_iff {d : IfaceDecl} {m : GoString} {S : CodeSet} :
    Has env decls d m S ↔ From env decls d (embeds d.elements) m S := by
  constructor
  · intro h
    cases h with
    | own h => exact .inl h
    | embeds h1 h2 h3 => exact .inr ⟨_, mem_embeds.2 h1, _, h2, rfl, h3⟩
    | imports h1 h2 h3 => exact .inr ⟨_, mem_embeds.2 h1, _, h2, h3⟩
  · rintro (h | ⟨e, he, h⟩)
    · exact .own h
    · cases e with
      | name id n =>
        obtain ⟨d', hd', rfl, h⟩ := h
        exact .embeds (mem_embeds.1 he) hd' h
      | qualified id =>
        obtain ⟨ms, hr, hm⟩ := h
        exact .imports (mem_embeds.1 he) hr hm

theorem From.has {d : IfaceDecl} {es : List Embedded} (hes : ∀ e ∈ es, e ∈ embeds d.elements) {m : GoString} {S : CodeSet}
    (h : From env decls d es m S) : Has env decls d m S :=
  has_iff.2 (h.imp id fun ⟨e, he, h⟩ => ⟨e, hes e he, h⟩)

theorem own_unique {d : IfaceDecl} (hn : (methodNames d.elements).Nodup) {m : GoString} {S T : CodeSet} (h : Own env d m S)
    (h' : Own env d m T) : S = T := by
  obtain ⟨em, h1, rfl⟩ := own_iff.1 h
  obtain ⟨em', h2, rfl⟩ := own_iff.1 h'
  rw [declaredIn_unique hn h1 h2]

theorem _root_.Serum.IfaceSpec.TakesFrom.sub {d : IfaceDecl} {es : List Embedded} {m : GoString} {S : CodeSet} (h : TakesFrom env decls d es m S) :
    From env decls d es m S := by
  induction h with
  | own h => exact .inl h
  | @embeds d d' es pre post id m S _ he _ hd' _ ih => exact .inr ⟨.name id d'.name, by rw [he]; simp, d', hd', rfl, has_iff.2 ih⟩
  | @imports d es pre post id ms m S _ he _ hr hm => exact .inr ⟨.qualified id, by rw [he]; simp, ms, hr, hm⟩

theorem _root_.Serum.IfaceSpec.Takes.has {d : IfaceDecl} {m : GoString} {S : CodeSet} (h : Takes env decls d m S) : Has env decls d m S :=
  has_iff.2 (TakesFrom.sub h)

theorem _root_.Serum.IfaceSpec.Gives.contributes {e : Embedded} {m : GoString} {S : CodeSet} (h : Gives env decls e m S) : Contributes env decls e m S := by
  cases e with
  | name id n => obtain ⟨d, hd, hn, h⟩ := h; exact ⟨d, hd, hn, Takes.has h⟩
  | qualified id => exact h

/-- One of several lists is the longer one. -/
private theorem split_cases {α : Type} : ∀ {pre pre' : List α} {e e' : α} {post post' : List α},
    pre ++ e :: post = pre' ++ e' :: post' → (pre = pre' ∧ e = e') ∨ e ∈ pre' ∨ e' ∈ pre
  | [], [], _, _, _, _, h => by simp at h; exact .inl ⟨rfl, h.1⟩
  | [], a :: pre', _, _, _, _, h => by simp at h; exact .inr (.inl (by simp [h.1]))
  | a :: pre, [], _, _, _, _, h => by simp at h; exact .inr (.inr (by simp [h.1]))
  | a :: pre, b :: pre', e, e', post, post', h => by
    simp only [List.cons_append, List.cons.injEq] at h
    rcases split_cases h.2 with ⟨h1, h2⟩ | h1 | h1
    · exact .inl ⟨by rw [h.1, h1], h2⟩
    · exact .inr (.inl (by simp [h1]))
    · exact .inr (.inr (by simp [h1]))

theorem _root_.Serum.IfaceSpec.TakesFrom.mono {d : IfaceDecl} {es : List Embedded} {m : GoString} {S : CodeSet} (h : TakesFrom env decls d es m S)
    (es' : List Embedded) : TakesFrom env decls d (es ++ es') m S := by
  cases h with
  | own h => exact .own h
  | @embeds _ d' _ pre post id _ _ h1 h2 h3 h4 h5 => exact .embeds (pre := pre) (post := post ++ es') h1 (by rw [h2, List.append_assoc, List.cons_append]) h3 h4 h5
  | @imports _ _ pre post id ms _ _ h1 h2 h3 h4 h5 => exact .imports (pre := pre) (post := post ++ es') h1 (by rw [h2, List.append_assoc, List.cons_append]) h3 h4 h5

theorem _root_.Serum.IfaceSpec.TakesFrom.last {d : IfaceDecl} {es : List Embedded} {e : Embedded} {m : GoString} {S : CodeSet}
    (hno : ∀ T, ¬ From env decls d es m T) (h : Gives env decls e m S) : TakesFrom env decls d (es ++ [e]) m S := by
  have h1 : ∀ T, ¬ Own env d m T := fun T hT => hno T (.inl hT)
  have h2 : ∀ e ∈ es, ∀ T, ¬ Contributes env decls e m T := fun e he T hT => hno T (.inr ⟨e, he, hT⟩)
  cases e with
  | name id n =>
    obtain ⟨d', hd', rfl, h⟩ := h
    exact .embeds (pre := es) (post := []) h1 rfl h2 hd' h
  | qualified id =>
    obtain ⟨ms, hr, hm⟩ := h
    exact .imports (pre := es) (post := []) h1 rfl h2 hr hm

/-- `i` is what line 61 finds for the declaration `d`. -/
def Base (env : Env) (info : Info) (d : IfaceDecl) (i : ErrorIface) : Prop := ∃ ds, check env info d = .ok (i, ds)

/-- `i` is a complete record of `d`. -/
structure Final (env : Env) (decls : List IfaceDecl) (N : Prop) (d : IfaceDecl) (i : ErrorIface) : Prop where
  name : i.name = d.name
  obj : i.obj = d.obj
  nonempty : i.methods ≠ []
  holds : Holds N (Has env decls d) (Takes env decls d) i.methods
  own : ∀ m em, DeclaredIn env d.elements m em → i.methods.get m = some em
  ident : ∀ m em, i.methods.get m = some em → DeclaredIn env d.elements m em ∨ em.ident = none

/-- The search is done with `d`. -/
def Finished (env : Env) (decls : List IfaceDecl) (st : St) (d : IfaceDecl) : Prop :=
  st.pending.get d.name = none ∧ (∀ x, ClashIn env decls d x → x ∈ st.diags) ∧
    match st.done.get d.name with
    | some i => Final env decls (Compatible st.diags) d i
    | none => ∀ m S, ¬ Has env decls d m S

/-- The invariant of the search; `P`: the interfaces being looked at. -/
structure Inv (env : Env) (info : Info) (decls : List IfaceDecl) (P : IfaceDecl → Prop) (st : St) : Prop where
  pending : ∀ n i, st.pending.get n = some i → ∃ d ∈ decls, d.name = n
  done : ∀ n i, st.done.get n = some i → ∃ d ∈ decls, d.name = n
  settled : ∀ d ∈ decls, ¬ P d → (∃ i, Base env info d i ∧ st.pending.get d.name = some i) ∨ Finished env decls st d
  fresh : ∀ d ∈ decls, P d ∨ st.pending.get d.name ≠ none → st.done.get d.name = none
  clash : ∀ x ∈ st.diags, ∀ m t, x.msg = .incompatible m t → ∃ d ∈ decls, ClashIn env decls d x

theorem Inv.conflict {P : IfaceDecl → Prop} {st : St} (h : Inv env info decls P st) (hc : ¬ Compatible st.diags) : Conflict env decls := by
  refine Classical.byContradiction fun hno => hc fun x hx m t he => ?_
  obtain ⟨d, hd, pre, e, post, hes, m', S, T, mi, un, h1, h2, h3, -, -, rfl⟩ := h.clash x hx m t he
  refine hno ⟨d, hd, m', S, T, ?_, ?_, h3⟩
  · exact h1.sub.has fun e he => by rw [hes]; simp [he]
  · exact has_iff.2 (.inr ⟨e, by rw [hes]; simp, Gives.contributes h2⟩)

/-- Distinct names, no cyclic embedding. -/
structure WellNamed (decls : List IfaceDecl) (rank : GoString → Nat) : Prop where
  nodup : decls.Nodup
  names : ∀ d ∈ decls, ∀ d' ∈ decls, d.name = d'.name → d = d'
  methods : ∀ d ∈ decls, (methodNames d.elements).Nodup
  acyclic : ∀ d ∈ decls, ∀ d' ∈ decls, ∀ id, .embedded (.name id d'.name) ∈ d.elements → rank d'.name < rank d.name

theorem recorded_unique (hf : Fair env info) {id : NodeId} {ms ms' : List (GoString × CodeSet)} {m : GoString} {S T : CodeSet}
    (h : Recorded env id ms) (hm : (m, S) ∈ ms) (h' : Recorded env id ms') (hm' : (m, T) ∈ ms') : S = T := by
  obtain ⟨o, h1, h2⟩ := h
  obtain ⟨o', h1', h2'⟩ := h'
  rw [h1] at h1'; cases h1'
  rw [h2] at h2'; cases h2'
  have e1 := Table.get_of_mem (hf.facts o _ h2) hm
  have e2 := Table.get_of_mem (hf.facts o _ h2) hm'
  rw [e1] at e2; cases e2; rfl

/-- There is one answer. -/
theorem takesFrom_unique (hf : Fair env info) {rank : GoString → Nat} (hw : WellNamed decls rank) {d : IfaceDecl} {es : List Embedded}
    {m : GoString} {S : CodeSet} (h : TakesFrom env decls d es m S) : d ∈ decls → ∀ T, TakesFrom env decls d es m T → S = T := by
  induction h with
  | own h =>
    intro hd T h'
    cases h' with
    | own h' => exact own_unique (hw.methods _ hd) h h'
    | embeds hno => exact (hno _ h).elim
    | imports hno => exact (hno _ h).elim
  | @embeds d d' es pre post id m S hno he hpre hd' ht ih =>
    intro hd T h'
    have hcon : Contributes env decls (.name id d'.name) m S := ⟨d', hd', rfl, Takes.has ht⟩
    cases h' with
    | own h' => exact (hno _ h').elim
    | @embeds _ d'' _ pre' post' id' _ _ _ he' hpre' hd'' ht' =>
      rw [he] at he'
      rcases split_cases he' with ⟨-, h2⟩ | h2 | h2
      · simp only [Embedded.name.injEq] at h2
        have := hw.names d' hd' d'' hd'' h2.2
        subst this
        exact ih hd' T ht'
      · exact (hpre' _ h2 _ hcon).elim
      · exact (hpre _ h2 T ⟨d'', hd'', rfl, Takes.has ht'⟩).elim
    | @imports _ _ pre' post' id' ms _ _ _ he' hpre' hr hm =>
      rw [he] at he'
      rcases split_cases he' with ⟨-, h2⟩ | h2 | h2
      · cases h2
      · exact (hpre' _ h2 _ hcon).elim
      · exact (hpre _ h2 T ⟨ms, hr, hm⟩).elim
  | @imports d es pre post id ms m S hno he hpre hr hm =>
    intro hd T h'
    have hcon : Contributes env decls (.qualified id) m S := ⟨ms, hr, hm⟩
    cases h' with
    | own h' => exact (hno _ h').elim
    | @embeds _ d'' _ pre' post' id' _ _ _ he' hpre' hd'' ht' =>
      rw [he] at he'
      rcases split_cases he' with ⟨-, h2⟩ | h2 | h2
      · cases h2
      · exact (hpre' _ h2 _ hcon).elim
      · exact (hpre _ h2 T ⟨d'', hd'', rfl, Takes.has ht'⟩).elim
    | @imports _ _ pre' post' id' ms' _ _ _ he' hpre' hr' hm' =>
      rw [he] at he'
      rcases split_cases he' with ⟨-, h2⟩ | h2 | h2
      · simp only [Embedded.qualified.injEq] at h2
        subst h2
        exact recorded_unique hf hr hm hr' hm'
      · exact (hpre' _ h2 _ hcon).elim
      · exact (hpre _ h2 T ⟨ms', hr', hm'⟩).elim

theorem gives_unique (hf : Fair env info) {rank : GoString → Nat} (hw : WellNamed decls rank) {e : Embedded} {m : GoString}
    {S T : CodeSet} (h : Gives env decls e m S) (h' : Gives env decls e m T) : S = T := by
  cases e with
  | name id n =>
    obtain ⟨d, hd, hn, h⟩ := h
    obtain ⟨d', hd', hn', h'⟩ := h'
    have := hw.names d hd d' hd' (hn.trans hn'.symm)
    subst this
    exact takesFrom_unique hf hw h hd T h'
  | qualified id =>
    obtain ⟨ms, hr, hm⟩ := h
    obtain ⟨ms', hr', hm'⟩ := h'
    exact recorded_unique hf hr hm hr' hm'

theorem Final.mono {N N' : Prop} {d : IfaceDecl} {i : ErrorIface} (h : Final env decls N d i) (hn : N' → N) :
    Final env decls N' d i := ⟨h.name, h.obj, h.nonempty, h.holds.mono hn, h.own, h.ident⟩

theorem Finished.mono {st : St} {d : IfaceDecl} (h : Finished env decls st d) (ds : List IfaceDiag) :
    Finished env decls { st with diags := st.diags ++ ds } d := by
  refine ⟨h.1, fun x hx => List.mem_append_left _ (h.2.1 x hx), ?_⟩
  have h2 := h.2.2
  simp only
  cases hd : st.done.get d.name with
  | none => rw [hd] at h2; exact h2
  | some i => rw [hd] at h2; exact h2.mono fun hc => (Compatible.append.1 hc).1

theorem Inv.addDiags {P : IfaceDecl → Prop} {st : St} (h : Inv env info decls P st) {ds : List IfaceDiag}
    (hc : ∀ x ∈ ds, ∀ m t, x.msg = .incompatible m t → ∃ d ∈ decls, ClashIn env decls d x) :
    Inv env info decls P { st with diags := st.diags ++ ds } := by
  refine ⟨h.pending, h.done, fun d hd hp => (h.settled d hd hp).imp id fun hf => hf.mono ds, h.fresh, ?_⟩
  intro x hx
  rcases List.mem_append.1 hx with hx | hx
  · exact h.clash x hx
  · exact hc x hx

/-- How often the interfaces still to be looked at will be the reason to report `x`. -/
noncomputable def owed (env : Env) (decls : List IfaceDecl) (st : St) (x : IfaceDiag) : Nat :=
  (decls.map fun d => if st.pending.get d.name = none then 0 else clashes env decls d x).sum

/-- Nothing is reported that was not owed, and nothing owed is lost. -/
def Pays (env : Env) (decls : List IfaceDecl) (st st' : St) (n : IfaceDiag → Nat) : Prop :=
  ∀ x, st'.diags.count x + owed env decls st' x = st.diags.count x + owed env decls st x + n x

theorem Pays.refl (st : St) : Pays env decls st st fun _ => 0 := fun _ => rfl

theorem Pays.trans {st₁ st₂ st₃ : St} {n n' : IfaceDiag → Nat} (h : Pays env decls st₁ st₂ n) (h' : Pays env decls st₂ st₃ n') :
    Pays env decls st₁ st₃ fun x => n x + n' x := fun x => by
  have h1 := h x; have h2 := h' x; show _ = _ + _ + (_ + _); omega

private theorem sum_except {α : Type} {k : α} {f g : α → Nat} : ∀ {l : List α}, l.Nodup → k ∈ l → (∀ a ∈ l, a ≠ k → f a = g a) → f k = 0 →
    (l.map f).sum + g k = (l.map g).sum
  | a :: l, hn, hk, he, h0 => by
    simp only [List.nodup_cons] at hn
    simp only [List.map_cons, List.sum_cons]
    by_cases hak : a = k
    · subst hak
      have : l.map f = l.map g := List.map_congr_left fun b hb => he b (by simp [hb]) fun h => hn.1 (h ▸ hb)
      rw [this, h0]; omega
    · have hk : k ∈ l := by
        rcases List.mem_cons.1 hk with h | h
        · exact absurd h.symm hak
        · exact h
      have := sum_except hn.2 hk (fun b hb => he b (by simp [hb])) h0
      rw [he a (by simp) hak]; omega

theorem owed_delete {rank : GoString → Nat} (hw : WellNamed decls rank) {k : IfaceDecl} (hk : k ∈ decls) {st : St}
    (hp : st.pending.get k.name ≠ none) (x : IfaceDiag) :
    owed env decls { st with pending := st.pending.delete k.name } x + clashes env decls k x = owed env decls st x := by
  unfold owed
  have := sum_except (k := k) (f := fun d => if (st.pending.delete k.name).get d.name = none then 0 else clashes env decls d x)
    (g := fun d => if st.pending.get d.name = none then 0 else clashes env decls d x) hw.nodup hk
    (fun d hd hne => by rw [Table.get_delete, if_neg fun h => hne (hw.names d hd k hk h)]) (by simp [Table.get_delete])
  simp only [if_neg hp] at this
  exact this

theorem addMethods_nodup (at_ : NodeId) : ∀ (add : List (GoString × CodeSet)) (ms : Table ErrorMethod), (add.map Prod.fst).Nodup →
    (addMethods info at_ add ms).2.Nodup
  | [], ms, _ => by simp [addMethods]
  | (name, codes) :: add, ms, hn => by
    simp only [List.map_cons, List.nodup_cons, List.mem_map, not_exists, not_and] at hn
    cases hg : ms.get name with
    | none => simp only [addMethods, hg]; exact addMethods_nodup at_ add _ hn.2
    | some old =>
      have ih := addMethods_nodup at_ add ms hn.2
      have hno : ∀ t, (⟨at_, .incompatible name t⟩ : IfaceDiag) ∉ (addMethods info at_ add ms).2 := by
        intro t ht
        rw [addMethods_diags at_ add ms hn.2] at ht
        obtain ⟨m, S, em, h1, -, -, h2⟩ := ht
        simp only [IfaceDiag.mk.injEq, IfaceMsg.incompatible.injEq, true_and] at h2
        exact hn.1 _ h1 h2.1.symm
      simp only [addMethods, hg]
      rcases checkIfErrorCodesMatch info.matchOrders old.codes codes with ⟨b, t⟩
      cases b with
      | true => exact ih
      | false => exact List.nodup_cons.2 ⟨hno t, ih⟩

/-- What a recursive visit of a pending interface achieves. -/
def VisitOk (env : Env) (info : Info) (decls : List IfaceDecl) (P : IfaceDecl → Prop) (k : IfaceDecl) (st st' : St) : Prop :=
  Inv env info decls P st' ∧ Finished env decls st' k ∧ (∃ ds, st'.diags = st.diags ++ ds) ∧
    (∀ n, st.pending.get n = none → st'.pending.get n = none) ∧ Pays env decls st st' fun _ => 0

/-- The diagnostics for one embedded interface. -/
theorem clash_diags (hf : Fair env info) {rank : GoString → Nat} (hw : WellNamed decls rank) {d : IfaceDecl} (hd : d ∈ decls)
    {seen : List Embedded} {e : Embedded} {ms : Table ErrorMethod} {add : List (GoString × CodeSet)} {N : Prop}
    (hh : Holds N (From env decls d seen) (TakesFrom env decls d seen) ms) (hnd : (add.map Prod.fst).Nodup)
    (hc : ∀ m S, Contributes env decls e m S → ∃ T, (m, T) ∈ add) (hg : ∀ m S, (m, S) ∈ add → Gives env decls e m S) (x : IfaceDiag) :
    x ∈ (addMethods info e.id add ms).2 ↔ ClashOf env decls d seen e x := by
  rw [addMethods_diags e.id add ms hnd x]
  have key : ∀ m S T, ((checkIfErrorCodesMatch info.matchOrders S T).1 = false ∧
      x = ⟨e.id, .incompatible m (checkIfErrorCodesMatch info.matchOrders S T).2⟩) ↔
      ¬ Same S T ∧ ∃ missing unused, Props.Reports.ListsDifference missing S T ∧ Props.Reports.ListsDifference unused T S ∧
        x = ⟨e.id, .incompatible m (Props.Reports.mismatchText missing unused)⟩ := by
    intro m S T
    obtain ⟨h1, missing, unused, h2, h3, h4⟩ := Props.Reports.mismatch_exact info.matchOrders hf.matches_ S T
    have h1' : (checkIfErrorCodesMatch info.matchOrders S T).1 = false ↔ ¬ Same S T := by
      rw [← Bool.not_eq_true, h1]; exact Iff.rfl
    rw [h1']
    refine and_congr_right fun hns => ⟨fun hx => ⟨missing, unused, h2, h3, by rw [← h4]; exact hx⟩, ?_⟩
    rintro ⟨missing', unused', h2', h3', hx⟩
    have huniq : ∀ {l l' : List GoString} {a b}, Props.Reports.ListsDifference l a b → Props.Reports.ListsDifference l' a b → l = l' :=
      fun h h' => Props.Reports.ascending_unique h.2.1 h'.2.1 ((List.perm_ext_iff_of_nodup h.1 h'.1).2 fun c => by rw [h.2.2, h'.2.2])
    rw [huniq h2 h2', huniq h3 h3'] at h4
    rw [h4]; exact hx
  constructor
  · rintro ⟨m, T, em, h1, h2, h3⟩
    obtain ⟨hns, missing, unused, a, b, rfl⟩ := (key m em.codes T).1 h3
    exact ⟨m, em.codes, T, missing, unused, hh.taken m em h2, hg m T h1, hns, a, b, rfl⟩
  · rintro ⟨m, S, T, missing, unused, h1, h2, hns, a, b, rfl⟩
    obtain ⟨em, hem⟩ := hh.complete m S h1.sub
    have := takesFrom_unique hf hw (hh.taken m em hem) hd S h1
    subst this
    obtain ⟨T', hT'⟩ := hc m T (Gives.contributes h2)
    have := gives_unique hf hw (hg m T' hT') h2
    subst this
    exact ⟨m, T', em, hT', hem, (key m em.codes T').2 ⟨hns, missing, unused, a, b, rfl⟩⟩

theorem iteration_nodup (hf : Fair env info) {ms : Table ErrorMethod} (h : (ms.map Prod.fst).Nodup) :
    ((iteration info ms).map Prod.fst).Nodup := by
  have : (iteration info ms).map Prod.fst = (info.order ms).map Prod.fst := by simp [iteration, Function.comp_def]
  rw [this]; exact ((hf.order ms).map _).nodup_iff.2 h

theorem mem_iteration (hf : Fair env info) {ms : Table ErrorMethod} (h : (ms.map Prod.fst).Nodup) {m : GoString} {S : CodeSet} :
    (m, S) ∈ iteration info ms ↔ ∃ em, ms.get m = some em ∧ em.codes = S := by
  simp only [iteration, List.mem_map, (hf.order ms).mem_iff, Prod.mk.injEq]
  constructor
  · rintro ⟨⟨m', em⟩, hm, rfl, rfl⟩; exact ⟨em, Table.get_of_mem h hm, rfl⟩
  · rintro ⟨em, hm, rfl⟩; exact ⟨(m, em), Table.mem_of_get hm, rfl, rfl⟩

theorem order_nodup (hf : Fair env info) {ms : List (GoString × CodeSet)} (h : (ms.map Prod.fst).Nodup) :
    ((info.order ms).map Prod.fst).Nodup := ((hf.order ms).map _).nodup_iff.2 h

/-- One more embedded interface has been added. -/
theorem From.snoc {d : IfaceDecl} {seen : List Embedded} {e : Embedded} {m : GoString} {S : CodeSet} :
    From env decls d (seen ++ [e]) m S ↔ From env decls d seen m S ∨ Contributes env decls e m S := by
  simp only [From, List.mem_append, List.mem_singleton, or_assoc]
  refine or_congr_right ?_
  constructor
  · rintro ⟨e', h | h, hc⟩
    · exact .inl ⟨e', h, hc⟩
    · exact .inr (h ▸ hc)
  · rintro (⟨e', h, hc⟩ | hc)
    · exact ⟨e', .inl h, hc⟩
    · exact ⟨e, .inr rfl, hc⟩

theorem embed_spec (hf : Fair env info) {rank : GoString → Nat} (hw : WellNamed decls rank) {d : IfaceDecl} (hd : d ∈ decls)
    {P : IfaceDecl → Prop} (hP : ∀ p, P p → rank d.name ≤ rank p.name) {visit : ErrorIface → St → Except Stop St}
    (hv : ∀ k ∈ decls, rank k.name < rank d.name → ∀ st i st', Inv env info decls P st → Base env info k i →
      st.pending.get k.name = some i → visit i st = .ok st' → VisitOk env info decls P k st st') :
    ∀ (es seen : List Embedded) (ms ms' : Table ErrorMethod) (st st' : St),
    seen ++ es = embeds d.elements → Inv env info decls P st →
    Holds (Compatible st.diags) (From env decls d seen) (TakesFrom env decls d seen) ms →
    embed env info visit es ms st = .ok (ms', st') →
    Inv env info decls P st' ∧ Holds (Compatible st'.diags) (From env decls d (seen ++ es)) (TakesFrom env decls d (seen ++ es)) ms' ∧
      (∀ pre e post, es = pre ++ e :: post → ∀ x, ClashOf env decls d (seen ++ pre) e x → x ∈ st'.diags) ∧
      (∃ ds, st'.diags = st.diags ++ ds) ∧ (∀ n, st.pending.get n = none → st'.pending.get n = none) ∧
      (∀ m em, ms.get m = some em → ms'.get m = some em) ∧
      (∀ m em, ms'.get m = some em → ms.get m = some em ∨ em.ident = none) ∧
      Pays env decls st st' (clashesFrom env decls d seen es)
  | [], seen, ms, ms', st, st', _, hi, hh, h => by
    simp only [embed, Except.ok.injEq, Prod.mk.injEq] at h
    obtain ⟨rfl, rfl⟩ := h
    exact ⟨hi, by simpa using hh, by simp, ⟨[], by simp⟩, fun _ h => h, fun _ _ h => h, fun _ _ h => .inl h, Pays.refl _⟩
  | e :: es, seen, ms, ms', st, st', hes, hi, hh, h => by
    -- the case that something is added
    have hadd : ∀ (add : List (GoString × CodeSet)) (st₁ : St), Inv env info decls P st₁ →
        (∃ ds, st₁.diags = st.diags ++ ds) → (∀ n, st.pending.get n = none → st₁.pending.get n = none) → (Pays env decls st st₁ fun _ => 0) → (add.map Prod.fst).Nodup →
        (∀ m S, Contributes env decls e m S → ∃ T, (m, T) ∈ add) →
        (∀ m S, (m, S) ∈ add → Gives env decls e m S) →
        (Compatible st₁.diags → ∀ m T S, (m, T) ∈ add → Contributes env decls e m S → Same T S) →
        embed env info visit es (addMethods info e.id add ms).1 { st₁ with diags := st₁.diags ++ (addMethods info e.id add ms).2 } = .ok (ms', st') →
        Inv env info decls P st' ∧ Holds (Compatible st'.diags) (From env decls d (seen ++ e :: es)) (TakesFrom env decls d (seen ++ e :: es)) ms' ∧
          (∀ pre e' post, e :: es = pre ++ e' :: post → ∀ x, ClashOf env decls d (seen ++ pre) e' x → x ∈ st'.diags) ∧
          (∃ ds, st'.diags = st.diags ++ ds) ∧ (∀ n, st.pending.get n = none → st'.pending.get n = none) ∧
          (∀ m em, ms.get m = some em → ms'.get m = some em) ∧
          (∀ m em, ms'.get m = some em → ms.get m = some em ∨ em.ident = none) ∧
          Pays env decls st st' (clashesFrom env decls d seen (e :: es)) := by
      intro add st₁ hi₁ ⟨ds₁, hds₁⟩ hpn hpay hnd hc hg ha h
      have hh₁ : Holds (Compatible st₁.diags) (From env decls d seen) (TakesFrom env decls d seen) ms :=
        hh.mono fun hcomp => by rw [hds₁] at hcomp; exact (Compatible.append.1 hcomp).1
      have hcl := clash_diags hf hw hd hh hnd hc hg
      have hi₂ := hi₁.addDiags (ds := (addMethods info e.id add ms).2) (by
        intro x hx m t he
        exact ⟨d, hd, seen, e, es, hes.symm, (hcl x).1 hx⟩)
      have hh₂ := hh₁.add (info := info) (at_ := e.id) (N' := Compatible (st₁.diags ++ (addMethods info e.id add ms).2))
        (T' := TakesFrom env decls d (seen ++ [e]))
        hf.matches_ hnd hc (fun m S hm => Gives.contributes (hg m S hm)) ha (fun hcomp => Compatible.append.1 hcomp)
        (fun m S h => h.mono _) (fun m S hm hno => TakesFrom.last hno (hg m S hm))
      have hh₃ := hh₂.congr (R' := From env decls d (seen ++ [e])) (fun m S => From.snoc.symm) (fun m S h => h)
      obtain ⟨r1, r2, rc, ⟨ds, r3⟩, r6, r4, r5, r7⟩ := embed_spec hf hw hd hP hv es (seen ++ [e]) _ ms' _ st' (by simpa using hes) hi₂ hh₃ h
      refine ⟨r1, by simpa using r2, ?_, ⟨ds₁ ++ (addMethods info e.id add ms).2 ++ ds, ?_⟩, fun n hn => r6 n (hpn n hn), ?_, ?_, ?_⟩
      · intro pre e' post hsplit x hx
        cases pre with
        | nil =>
          simp only [List.nil_append, List.cons.injEq] at hsplit
          rw [List.append_nil, ← hsplit.1] at hx
          rw [r3]
          exact List.mem_append_left _ (List.mem_append_right _ ((hcl x).2 hx))
        | cons a pre =>
          simp only [List.cons_append, List.cons.injEq] at hsplit
          refine rc pre e' post hsplit.2 x ?_
          rw [hsplit.1]; simpa using hx
      · rw [r3]; simp [hds₁]
      · intro m em hm; refine r4 m em ?_; rw [addMethods_get, hm]
      · intro m em hm
        rcases r5 m em hm with hm | hm
        · rw [addMethods_get] at hm
          cases hg : ms.get m with
          | some em' => rw [hg] at hm; exact .inl hm
          | none =>
            simp only [hg, Option.map_eq_some_iff] at hm
            obtain ⟨S, _, rfl⟩ := hm; exact .inr rfl
        · exact .inr hm
      · intro x
        have h1 : _ = _ + _ + 0 := hpay x
        have h2 := r7 x
        classical
        have h3 : (addMethods info e.id add ms).2.count x = if ClashOf env decls d seen e x then 1 else 0 := by
          rw [(addMethods_nodup e.id add ms hnd).count]
          by_cases hx : ClashOf env decls d seen e x
          · rw [if_pos hx, if_pos ((hcl x).2 hx)]
          · rw [if_neg hx, if_neg fun h => hx ((hcl x).1 h)]
        have h4 : owed env decls { st₁ with diags := st₁.diags ++ (addMethods info e.id add ms).2 } x = owed env decls st₁ x := rfl
        rw [h4] at h2
        simp only [List.count_append, h3] at h2
        simp only [clashesFrom]
        split at h2 <;> rename_i hx <;> simp only [hx, if_true, if_false] <;> omega
    -- the case that nothing is added
    have hskip : ∀ (st₁ : St), Inv env info decls P st₁ → (∃ ds, st₁.diags = st.diags ++ ds) →
        (∀ n, st.pending.get n = none → st₁.pending.get n = none) → (Pays env decls st st₁ fun _ => 0) → (∀ m S, ¬ Contributes env decls e m S) → embed env info visit es ms st₁ = .ok (ms', st') →
        Inv env info decls P st' ∧ Holds (Compatible st'.diags) (From env decls d (seen ++ e :: es)) (TakesFrom env decls d (seen ++ e :: es)) ms' ∧
          (∀ pre e' post, e :: es = pre ++ e' :: post → ∀ x, ClashOf env decls d (seen ++ pre) e' x → x ∈ st'.diags) ∧
          (∃ ds, st'.diags = st.diags ++ ds) ∧ (∀ n, st.pending.get n = none → st'.pending.get n = none) ∧
          (∀ m em, ms.get m = some em → ms'.get m = some em) ∧
          (∀ m em, ms'.get m = some em → ms.get m = some em ∨ em.ident = none) ∧
          Pays env decls st st' (clashesFrom env decls d seen (e :: es)) := by
      intro st₁ hi₁ ⟨ds₁, hds₁⟩ hpn hpay hno h
      have hh₁ : Holds (Compatible st₁.diags) (From env decls d (seen ++ [e])) (TakesFrom env decls d (seen ++ [e])) ms :=
        (hh.mono fun hcomp => by rw [hds₁] at hcomp; exact (Compatible.append.1 hcomp).1).congr (fun m S => by
          rw [From.snoc]; simp [hno m S]) fun m S h => h.mono _
      obtain ⟨r1, r2, rc, ⟨ds, r3⟩, r6, r4, r5, r7⟩ := embed_spec hf hw hd hP hv es (seen ++ [e]) ms ms' st₁ st' (by simpa using hes) hi₁ hh₁ h
      refine ⟨r1, by simpa using r2, ?_, ⟨ds₁ ++ ds, by rw [r3, hds₁, List.append_assoc]⟩, fun n hn => r6 n (hpn n hn), r4, r5, ?_⟩
      rotate_left
      · intro x
        have h1 : _ = _ + _ + 0 := hpay x
        have h2 := r7 x
        have h3 : ¬ ClashOf env decls d seen e x := by
          rintro ⟨m, S, T, -, -, -, hg, -⟩
          exact hno m T (Gives.contributes hg)
        simp only [clashesFrom, if_neg h3]
        omega
      intro pre e' post hsplit x hx
      cases pre with
      | nil =>
        simp only [List.nil_append, List.cons.injEq] at hsplit
        rw [List.append_nil, ← hsplit.1] at hx
        obtain ⟨m, S, T, -, -, -, hg, -⟩ := hx
        exact (hno m T (Gives.contributes hg)).elim
      | cons a pre =>
        simp only [List.cons_append, List.cons.injEq] at hsplit
        refine rc pre e' post hsplit.2 x ?_
        rw [hsplit.1]; simpa using hx
    cases e with
    | qualified id =>
      simp only [embed] at h
      have hrec : ∀ ms₁, importFact env (env.typeOf id) = some ms₁ ↔ Recorded env id ms₁ := by
        intro ms₁
        simp only [importFact, Recorded, Option.bind_eq_some_iff]
      cases hi' : importFact env (env.typeOf id) with
      | none =>
        rw [hi'] at h
        refine hskip st hi ⟨[], by simp⟩ (fun _ h => h) (Pays.refl _) ?_ h
        rintro m S ⟨ms₁, h1, _⟩; rw [← hrec, hi'] at h1; cases h1
      | some add =>
        rw [hi'] at h
        have hadd' := (hrec add).1 hi'
        have huniq : ∀ ms₁, Recorded env id ms₁ → ms₁ = add := fun ms₁ h1 => by
          rw [← hrec, hi'] at h1; cases h1; rfl
        have hnd : (add.map Prod.fst).Nodup := by obtain ⟨o, _, h2⟩ := hadd'; exact hf.facts o _ h2
        refine hadd (info.order add) st hi ⟨[], by simp⟩ (fun _ h => h) (Pays.refl _) (order_nodup hf hnd) ?_ ?_ ?_ h
        · rintro m S ⟨ms₁, h1, h2⟩; rw [huniq ms₁ h1] at h2; exact ⟨S, (hf.order add).mem_iff.2 h2⟩
        · intro m S hm; exact ⟨add, hadd', (hf.order add).mem_iff.1 hm⟩
        · rintro _ m T S hm ⟨ms₁, h1, h2⟩
          rw [huniq ms₁ h1] at h2
          have e1 := Table.get_of_mem hnd h2
          have e2 := Table.get_of_mem hnd ((hf.order add).mem_iff.1 hm)
          rw [e1] at e2; cases e2; exact fun c => Iff.rfl
    | name id n =>
      simp only [embed, bind, Except.bind] at h
      -- the state after a possible visit
      have hstep : ∃ st₁, Inv env info decls P st₁ ∧ (∃ ds, st₁.diags = st.diags ++ ds) ∧
          (∀ n, st.pending.get n = none → st₁.pending.get n = none) ∧ (Pays env decls st st₁ fun _ => 0) ∧
          (∀ k ∈ decls, k.name = n → Finished env decls st₁ k) ∧
          (match st₁.done.get n with
            | none => embed env info visit es ms st₁
            | some i => embed env info visit es (addMethods info id (iteration info i.methods) ms).1
                { st₁ with diags := st₁.diags ++ (addMethods info id (iteration info i.methods) ms).2 }) = .ok (ms', st') := by
        have hlt : ∀ k ∈ decls, k.name = n → rank k.name < rank d.name := fun k hk hkn =>
          hw.acyclic d hd k hk id (mem_embeds.1 (by rw [← hes]; simp [hkn]))
        cases hp : st.pending.get n with
        | none =>
          simp only [hp, pure, Except.pure] at h
          refine ⟨st, hi, ⟨[], by simp⟩, fun _ h => h, Pays.refl _, ?_, ?_⟩
          · intro k hk hkn
            have hnP : ¬ P k := fun hPk => Nat.lt_irrefl _ (Nat.lt_of_lt_of_le (hlt k hk hkn) (hP k hPk))
            rcases hi.settled k hk hnP with ⟨i, _, h2⟩ | h2
            · rw [hkn, hp] at h2; cases h2
            · exact h2
          · revert h; cases st.done.get n <;> exact fun h => h
        | some i =>
          obtain ⟨k, hk, hkn⟩ := hi.pending n i hp
          have hnP : ¬ P k := fun hPk => Nat.lt_irrefl _ (Nat.lt_of_lt_of_le (hlt k hk hkn) (hP k hPk))
          simp only [hp] at h
          cases hvis : visit i st with
          | error e => simp [hvis] at h
          | ok st₁ =>
            simp only [hvis] at h
            have hb : Base env info k i := by
              rcases hi.settled k hk hnP with ⟨i', h1, h2⟩ | h2
              · rw [hkn, hp] at h2; cases h2; exact h1
              · have := h2.1; rw [hkn, hp] at this; cases this
            obtain ⟨v1, v2, v3, v4, v5⟩ := hv k hk (hlt k hk hkn) st i st₁ hi hb (hkn ▸ hp) hvis
            refine ⟨st₁, v1, v3, v4, v5, ?_, ?_⟩
            · intro k' hk' hkn'; rw [hw.names k' hk' k hk (hkn'.trans hkn.symm)]; exact v2
            · revert h; cases st₁.done.get n <;> exact fun h => h
      obtain ⟨st₁, hi₁, hds₁, hpn, hpay, hfin, h⟩ := hstep
      cases hg : st₁.done.get n with
      | none =>
        rw [hg] at h
        refine hskip st₁ hi₁ hds₁ hpn hpay ?_ h
        rintro m S ⟨k, hk, hkn, hhas⟩
        have := (hfin k hk hkn).2.2
        rw [hkn, hg] at this
        exact this m S hhas
      | some i =>
        rw [hg] at h
        obtain ⟨k, hk, hkn⟩ := hi₁.done n i hg
        have hF := (hfin k hk hkn).2.2
        rw [hkn, hg] at hF
        simp only at hF
        have hcon : ∀ m S, Contributes env decls (.name id n) m S ↔ Has env decls k m S := by
          intro m S
          constructor
          · rintro ⟨k', hk', hkn', hh⟩; rw [hw.names k' hk' k hk (hkn'.trans hkn.symm)] at hh; exact hh
          · intro hh; exact ⟨k, hk, hkn, hh⟩
        refine hadd (iteration info i.methods) st₁ hi₁ hds₁ hpn hpay (iteration_nodup hf hF.holds.nodup) ?_ ?_ ?_ h
        · intro m S hc
          obtain ⟨em, hem⟩ := hF.holds.complete m S ((hcon m S).1 hc)
          exact ⟨em.codes, (mem_iteration hf hF.holds.nodup).2 ⟨em, hem, rfl⟩⟩
        · intro m S hm
          obtain ⟨em, hem, rfl⟩ := (mem_iteration hf hF.holds.nodup).1 hm
          exact ⟨k, hk, hkn, hF.holds.taken m em hem⟩
        · intro hcomp m T S hm hc
          obtain ⟨em, hem, rfl⟩ := (mem_iteration hf hF.holds.nodup).1 hm
          exact hF.holds.agree hcomp m em S hem ((hcon m S).1 hc)

theorem base_spec {rank : GoString → Nat} (hw : WellNamed decls rank) {d : IfaceDecl} (hd : d ∈ decls) {i : ErrorIface}
    (hb : Base env info d i) : i.name = d.name ∧ i.obj = d.obj ∧ i.embedded = embeds d.elements ∧
      (∀ m em, i.methods.get m = some em ↔ DeclaredIn env d.elements m em) ∧
      ∀ N es, Holds N (Own env d) (TakesFrom env decls d es) i.methods := by
  obtain ⟨ds, h⟩ := hb
  obtain ⟨h1, h2, h3, _, h5, h6⟩ := check_spec (hw.methods d hd) h
  refine ⟨h1, h2, h3, h6, fun N es => ⟨h5, ?_, ?_, ?_, fun m em hem => .own (own_iff.2 ⟨em, (h6 m em).1 hem, rfl⟩)⟩⟩
  · intro m S hS
    obtain ⟨em, hem, _⟩ := own_iff.1 hS
    exact ⟨em, (h6 m em).2 hem⟩
  · intro m em hem; exact own_iff.2 ⟨em, (h6 m em).1 hem, rfl⟩
  · intro _ m em S hem hS
    obtain ⟨em', hem', rfl⟩ := own_iff.1 hS
    rw [declaredIn_unique (hw.methods d hd) ((h6 m em).1 hem) hem']
    exact fun c => Iff.rfl

theorem dfs_spec (hf : Fair env info) {rank : GoString → Nat} (hw : WellNamed decls rank) :
    ∀ (fuel : Nat) (k : IfaceDecl) (P : IfaceDecl → Prop) (st : St) (i : ErrorIface) (st' : St), k ∈ decls →
    (∀ p, P p → rank k.name < rank p.name) → Inv env info decls P st → Base env info k i →
    st.pending.get k.name = some i → dfs env info fuel i st = .ok st' → VisitOk env info decls P k st st'
  | 0, _, _, _, _, _, _, _, _, _, _, h => by simp [dfs] at h
  | fuel + 1, k, P, st, i, st', hk, hP, hi, hb, hpend, h => by
    obtain ⟨hname, hobj, hemb, hdecl, hown⟩ := base_spec hw hk hb
    simp only [dfs, bind, Except.bind, pure, Except.pure] at h
    have hne : ∀ d ∈ decls, d ≠ k → d.name ≠ k.name := fun d hd hn he => hn (hw.names d hd k hk he)
    have hi₀ : Inv env info decls (fun p => P p ∨ p = k) { st with pending := st.pending.delete i.name } := by
      refine ⟨?_, hi.done, ?_, ?_, hi.clash⟩
      · intro n j hj
        simp only [Table.get_delete] at hj
        split at hj
        · cases hj
        · exact hi.pending n j hj
      · intro d hd hnp
        simp only [not_or] at hnp
        have hdn := hne d hd hnp.2
        rcases hi.settled d hd hnp.1 with ⟨j, h1, h2⟩ | h2
        · exact .inl ⟨j, h1, by simp [Table.get_delete, hname, hdn, h2]⟩
        · exact .inr ⟨by simp [Table.get_delete, h2.1], h2.2⟩
      · intro d hd hc
        simp only [Table.get_delete] at hc
        refine hi.fresh d hd ?_
        rcases hc with (hc | rfl) | hc
        · exact .inl hc
        · exact .inr (by rw [hpend]; simp)
        · split at hc
          · exact (hc rfl).elim
          · exact .inr hc
    cases he : embed env info (dfs env info fuel) i.embedded i.methods { st with pending := st.pending.delete i.name } with
    | error e => simp [he] at h
    | ok v =>
      obtain ⟨ms, st₁⟩ := v
      simp only [he, Except.ok.injEq] at h
      have hrank : ∀ p, P p ∨ p = k → rank k.name ≤ rank p.name := by
        rintro p (hp | rfl)
        · exact Nat.le_of_lt (hP p hp)
        · exact Nat.le_refl _
      obtain ⟨hi₁, hh, hclash, ⟨ds, hds⟩, hpn, hkeep, hnew, hpay⟩ := embed_spec hf hw hk (P := fun p => P p ∨ p = k) hrank
        (visit := dfs env info fuel)
        (fun k' hk' hlt st i st' hinv hb hp hd => dfs_spec hf hw fuel k' _ st i st' hk'
          (fun p hp => Nat.lt_of_lt_of_le hlt (hrank p hp)) hinv hb hp hd)
        i.embedded [] i.methods ms _ st₁ (by simp [hemb]) hi₀
        ((hown _ _).congr (fun m S => by simp [From]) fun m S h => h) he
      have hh' : Holds (Compatible st₁.diags) (Has env decls k) (Takes env decls k) ms := hh.congr (fun m S => by
        rw [has_iff, hemb]; simp) fun m S h => by rw [hemb] at h; exact h
      have hclash' : ∀ x, ClashIn env decls k x → x ∈ st₁.diags := by
        rintro x ⟨pre, e, post, he, hx⟩
        exact hclash pre e post (by rw [hemb, he]) x hx
      have hkp : st₁.pending.get k.name = none := hpn _ (by simp [Table.get_delete, hname])
      have hkd : st₁.done.get k.name = none := hi₁.fresh k hk (.inl (.inr rfl))
      have hfin : Finished env decls st' k := by
        rw [← h]
        by_cases hl : ms.length > 0
        · rw [if_pos hl]
          refine ⟨hkp, hclash', ?_⟩
          simp only [Table.get_put, hname, if_true]
          refine ⟨rfl, hobj, fun he => ?_, hh', ?_, ?_⟩
          · have he' : ms = [] := he
            simp [he'] at hl
          · intro m em hm; exact hkeep m em ((hdecl m em).2 hm)
          · intro m em hm
            rcases hnew m em hm with hm | hm
            · exact .inl ((hdecl m em).1 hm)
            · exact .inr hm
        · rw [if_neg hl]
          refine ⟨hkp, hclash', ?_⟩
          rw [hkd]
          intro m S hS
          obtain ⟨em, hem⟩ := hh'.complete m S hS
          have : ms = [] := List.length_eq_zero_iff.1 (by omega)
          rw [this] at hem; simp at hem
      have hpend' : st'.pending = st₁.pending := by rw [← h]; split <;> rfl
      have hdiag' : st'.diags = st₁.diags := by rw [← h]; split <;> rfl
      have hdone' : ∀ n, n ≠ k.name → st'.done.get n = st₁.done.get n := by
        intro n hn; rw [← h]; split
        · simp [Table.get_put, hname, hn]
        · rfl
      refine ⟨⟨?_, ?_, ?_, ?_, ?_⟩, hfin, ⟨ds, by rw [hdiag', hds]⟩, ?_, ?_⟩
      · rw [hpend']; exact hi₁.pending
      · intro n j hj
        by_cases hn : n = k.name
        · exact ⟨k, hk, hn.symm⟩
        · rw [hdone' n hn] at hj; exact hi₁.done n j hj
      · intro d hd hnp
        by_cases hdk : d = k
        · subst hdk; exact .inr hfin
        · rcases hi₁.settled d hd (by simp [hnp, hdk]) with ⟨j, h1, h2⟩ | ⟨h1, h2⟩
          · exact .inl ⟨j, h1, by rw [hpend']; exact h2⟩
          · refine .inr ⟨by rw [hpend']; exact h1, ?_⟩
            rw [hdone' _ (hne d hd hdk), hdiag']; exact h2
      · intro d hd hc
        rw [hpend'] at hc
        have hdk : d ≠ k := by
          rintro rfl
          rcases hc with hc | hc
          · exact Nat.lt_irrefl _ (hP _ hc)
          · exact hc hkp
        rw [hdone' _ (hne d hd hdk)]
        exact hi₁.fresh d hd (hc.imp .inl fun h => h)
      · rw [hdiag']; exact hi₁.clash
      · intro n hn; rw [hpend']; refine hpn n ?_; simp [Table.get_delete, hn]
      · intro x
        have h1 := hpay x
        have h2 := owed_delete (env := env) hw hk (st := st) (by rw [hpend]; simp) x
        have h3 : owed env decls st' x = owed env decls st₁ x := by unfold owed; rw [hpend']
        rw [hdiag', h3]
        rw [hname] at h1
        simp only [hemb] at h1
        unfold clashes at h2
        show _ = _ + _ + 0
        omega

theorem dfsAll_spec (hf : Fair env info) {rank : GoString → Nat} (hw : WellNamed decls rank) (fuel : Nat) :
    ∀ (ns : List GoString) (st st' : St), Inv env info decls (fun _ => False) st →
    dfsAll env info fuel ns st = .ok st' →
    Inv env info decls (fun _ => False) st' ∧ (∃ ds, st'.diags = st.diags ++ ds) ∧
      (∀ n, st.pending.get n = none → st'.pending.get n = none) ∧ (∀ n ∈ ns, st'.pending.get n = none) ∧ Pays env decls st st' fun _ => 0
  | [], st, st', hi, h => by
    simp only [dfsAll, Except.ok.injEq] at h
    subst h; exact ⟨hi, ⟨[], by simp⟩, fun _ h => h, by simp, Pays.refl _⟩
  | n :: ns, st, st', hi, h => by
    simp only [dfsAll, bind, Except.bind, pure, Except.pure] at h
    cases hp : st.pending.get n with
    | none =>
      simp only [hp] at h
      obtain ⟨r1, r2, r3, r4, r5⟩ := dfsAll_spec hf hw fuel ns st st' hi h
      refine ⟨r1, r2, r3, fun k hk => ?_, r5⟩
      rcases List.mem_cons.1 hk with rfl | hk
      · exact r3 _ hp
      · exact r4 k hk
    | some i =>
      simp only [hp] at h
      cases hd : dfs env info fuel i st with
      | error e => simp [hd] at h
      | ok st₁ =>
        simp only [hd] at h
        obtain ⟨k, hk, hkn⟩ := hi.pending n i hp
        have hb : Base env info k i := by
          rcases hi.settled k hk (fun h => h) with ⟨i', h1, h2⟩ | h2
          · rw [hkn, hp] at h2; cases h2; exact h1
          · have := h2.1; rw [hkn, hp] at this; cases this
        obtain ⟨v1, v2, ⟨ds, v3⟩, v4, v5⟩ := dfs_spec hf hw fuel k _ st i st₁ hk (by simp) hi hb (hkn ▸ hp) hd
        obtain ⟨r1, ⟨es, r2⟩, r3, r4, r5⟩ := dfsAll_spec hf hw fuel ns st₁ st' v1 h
        refine ⟨r1, ⟨ds ++ es, by rw [r2, v3, List.append_assoc]⟩, fun m hm => r3 m (v4 m hm), fun m hm => ?_, v5.trans r5⟩
        rcases List.mem_cons.1 hm with rfl | hm
        · exact r3 _ (hkn ▸ v2.1)
        · exact r4 m hm

/-- The invariant while the declarations are gone through; `seen`: the ones already looked at. -/
structure Collected (env : Env) (info : Info) (decls seen : List IfaceDecl) (st : St) : Prop where
  pending : ∀ n i, st.pending.get n = some i → ∃ d ∈ seen, d.name = n
  done : ∀ n i, st.done.get n = some i → ∃ d ∈ seen, d.name = n
  settled : ∀ d ∈ seen, (∃ i, Base env info d i ∧ st.pending.get d.name = some i) ∨ Finished env decls st d
  fresh : ∀ d ∈ seen, st.pending.get d.name ≠ none → st.done.get d.name = none
  compatible : Compatible st.diags

theorem collect_spec {rank : GoString → Nat} (hw : WellNamed decls rank) :
    ∀ (ds seen : List IfaceDecl) (st st' : St), (seen ++ ds).map IfaceDecl.name |>.Nodup →
    (∀ d ∈ seen ++ ds, d ∈ decls) → Collected env info decls seen st → collect env info ds st = .ok st' →
    Collected env info decls (seen ++ ds) st'
  | [], seen, st, st', _, _, hc, h => by
    simp only [collect, Except.ok.injEq] at h
    subst h; simpa using hc
  | d :: ds, seen, st, st', hnd, hin, hc, h => by
    simp only [collect, bind, Except.bind] at h
    cases hch : check env info d with
    | error e => simp [hch] at h
    | ok v =>
      obtain ⟨i, es⟩ := v
      simp only [hch] at h
      have hd : d ∈ decls := hin d (by simp)
      obtain ⟨hname, hobj, hemb, hdecl, hown⟩ := base_spec hw hd ⟨es, hch⟩
      have hcomp := (check_spec (hw.methods d hd) hch).2.2.2.1
      have hnew : ∀ d' ∈ seen, d'.name ≠ d.name := by
        intro d' hd' he
        rw [List.map_append, List.nodup_append] at hnd
        exact hnd.2.2 _ (List.mem_map_of_mem hd') _ (by simp) he
      have hpn : st.pending.get d.name = none := by
        cases hp : st.pending.get d.name with
        | none => rfl
        | some j => obtain ⟨d', h1, h2⟩ := hc.pending _ j hp; exact (hnew d' h1 h2).elim
      have hdn : st.done.get d.name = none := by
        cases hp : st.done.get d.name with
        | none => rfl
        | some j => obtain ⟨d', h1, h2⟩ := hc.done _ j hp; exact (hnew d' h1 h2).elim
      have hfromOwn : embeds d.elements = [] → ∀ m S, Has env decls d m S ↔ Own env d m S := by
        intro he m S; rw [has_iff, he]; simp [From]
      have hnoclash : embeds d.elements = [] → ∀ ds : List IfaceDiag, ∀ x, ClashIn env decls d x → x ∈ ds := by
        rintro he ds x ⟨pre, e, post, h, -⟩
        rw [he] at h; simp at h
      suffices hsuff : Collected env info decls (seen ++ [d]) (if i.embedded.length > 0 then { done := st.done, pending := st.pending.put i.name i, diags := st.diags ++ es }
          else if i.methods.length > 0 then { done := st.done.put i.name i, pending := st.pending, diags := st.diags ++ es }
          else { done := st.done, pending := st.pending, diags := st.diags ++ es }) by
        have := collect_spec hw ds (seen ++ [d]) _ st' (by simpa using hnd) (by simpa using hin) hsuff h
        simpa using this
      have hfmono : ∀ d' ∈ seen, ∀ st₁ : St, st₁.pending.get d'.name = st.pending.get d'.name →
          st₁.done.get d'.name = st.done.get d'.name → st₁.diags = st.diags ++ es →
          (∃ i, Base env info d' i ∧ st₁.pending.get d'.name = some i) ∨ Finished env decls st₁ d' := by
        intro d' hd' st₁ e1 e2 e3
        rcases hc.settled d' hd' with ⟨j, h1, h2⟩ | h2
        · exact .inl ⟨j, h1, by rw [e1]; exact h2⟩
        · have := h2.mono es
          refine .inr ⟨by rw [e1]; exact h2.1, ?_⟩
          rw [e2, e3]; exact this.2
      by_cases he : i.embedded.length > 0
      · simp only [if_pos he]
        refine ⟨?_, ?_, ?_, ?_, Compatible.append.2 ⟨hc.compatible, hcomp⟩⟩
        · intro n j hj
          simp only [Table.get_put, hname] at hj
          split at hj
          · rename_i hn; exact ⟨d, by simp, hn.symm⟩
          · obtain ⟨d', h1, h2⟩ := hc.pending n j hj; exact ⟨d', by simp [h1], h2⟩
        · intro n j hj; obtain ⟨d', h1, h2⟩ := hc.done n j hj; exact ⟨d', by simp [h1], h2⟩
        · intro d' hd'
          rcases List.mem_append.1 hd' with hd' | hd'
          · exact hfmono d' hd' _ (by simp [Table.get_put, hname, hnew d' hd']) rfl rfl
          · rw [List.mem_singleton.1 hd']
            exact .inl ⟨i, ⟨es, hch⟩, by simp [Table.get_put, hname]⟩
        · intro d' hd' hp
          rcases List.mem_append.1 hd' with hd' | hd'
          · simp only [Table.get_put, hname, hnew d' hd', if_false] at hp; exact hc.fresh d' hd' hp
          · rw [List.mem_singleton.1 hd']; exact hdn
      · have hempty : embeds d.elements = [] := by
          rw [← hemb]; exact List.length_eq_zero_iff.1 (by omega)
        simp only [if_neg he]
        by_cases hm : i.methods.length > 0
        · simp only [if_pos hm]
          refine ⟨?_, ?_, ?_, ?_, Compatible.append.2 ⟨hc.compatible, hcomp⟩⟩
          · intro n j hj; obtain ⟨d', h1, h2⟩ := hc.pending n j hj; exact ⟨d', by simp [h1], h2⟩
          · intro n j hj
            simp only [Table.get_put, hname] at hj
            split at hj
            · rename_i hn; exact ⟨d, by simp, hn.symm⟩
            · obtain ⟨d', h1, h2⟩ := hc.done n j hj; exact ⟨d', by simp [h1], h2⟩
          · intro d' hd'
            rcases List.mem_append.1 hd' with hd' | hd'
            · exact hfmono d' hd' _ rfl (by simp [Table.get_put, hname, hnew d' hd']) rfl
            · rw [List.mem_singleton.1 hd']
              refine .inr ⟨hpn, hnoclash hempty _, ?_⟩
              simp only [Table.get_put, hname, if_true]
              refine ⟨hname, hobj, fun he => by simp [he] at hm,
                (hown _ _).congr (fun m S => (hfromOwn hempty m S).symm) fun m S h => h, ?_, ?_⟩
              · intro m em h; exact (hdecl m em).2 h
              · intro m em h; exact .inl ((hdecl m em).1 h)
          · intro d' hd' hp
            rcases List.mem_append.1 hd' with hd' | hd'
            · simp only [Table.get_put, hname, hnew d' hd', if_false]; exact hc.fresh d' hd' hp
            · rw [List.mem_singleton.1 hd'] at hp; exact (hp hpn).elim
        · simp only [if_neg hm]
          refine ⟨?_, ?_, ?_, ?_, Compatible.append.2 ⟨hc.compatible, hcomp⟩⟩
          · intro n j hj; obtain ⟨d', h1, h2⟩ := hc.pending n j hj; exact ⟨d', by simp [h1], h2⟩
          · intro n j hj; obtain ⟨d', h1, h2⟩ := hc.done n j hj; exact ⟨d', by simp [h1], h2⟩
          · intro d' hd'
            rcases List.mem_append.1 hd' with hd' | hd'
            · exact hfmono d' hd' _ rfl rfl rfl
            · rw [List.mem_singleton.1 hd']
              refine .inr ⟨hpn, hnoclash hempty _, ?_⟩
              simp only [hdn]
              intro m S hS
              obtain ⟨em, hem⟩ := (hown True []).complete m S ((hfromOwn hempty m S).1 hS)
              have : i.methods = [] := List.length_eq_zero_iff.1 (by omega)
              rw [this] at hem; simp at hem
          · intro d' hd' hp
            rcases List.mem_append.1 hd' with hd' | hd'
            · exact hc.fresh d' hd' hp
            · rw [List.mem_singleton.1 hd'] at hp; exact (hp hpn).elim

/-! ## The search reports nothing but incompatibilities -/

/-- The same diagnostics, up to incompatibilities. -/
def OnlyAdds (st st' : St) : Prop := ∀ x : IfaceDiag, (¬ ∃ m t, x.msg = .incompatible m t) → (x ∈ st'.diags ↔ x ∈ st.diags)

theorem addMethods_only {at_ : NodeId} {x : IfaceDiag} (hx : ¬ ∃ m t, x.msg = .incompatible m t) :
    ∀ {add : List (GoString × CodeSet)} {ms : Table ErrorMethod}, x ∉ (addMethods info at_ add ms).2
  | [], ms => by simp [addMethods]
  | (name, codes) :: add, ms => by
    cases hg : ms.get name with
    | none => simp only [addMethods, hg]; exact addMethods_only hx
    | some old =>
      simp only [addMethods, hg]
      rcases checkIfErrorCodesMatch info.matchOrders old.codes codes with ⟨b, t⟩
      cases b with
      | true => exact addMethods_only hx
      | false =>
        simp only [List.mem_cons, not_or]
        exact ⟨fun he => hx ⟨name, t, by rw [he]⟩, addMethods_only hx⟩

theorem embed_only {visit : ErrorIface → St → Except Stop St} (hv : ∀ i st st', visit i st = .ok st' → OnlyAdds st st') :
    ∀ {es : List Embedded} {ms ms' : Table ErrorMethod} {st st' : St}, embed env info visit es ms st = .ok (ms', st') → OnlyAdds st st'
  | [], ms, ms', st, st', h => by cases h; exact fun _ _ => Iff.rfl
  | .qualified id :: es, ms, ms', st, st', h => by
    simp only [embed] at h
    cases hi : importFact env (env.typeOf id) with
    | none => rw [hi] at h; exact embed_only hv h
    | some add =>
      rw [hi] at h
      intro x hx
      rw [embed_only hv h x hx]
      simp [addMethods_only hx]
  | .name id n :: es, ms, ms', st, st', h => by
    have key : ∀ {st1 : St}, OnlyAdds st st1 →
        (match st1.done.get n with
          | none => embed env info visit es ms st1
          | some i => embed env info visit es (addMethods info id (iteration info i.methods) ms).1
              { st1 with diags := st1.diags ++ (addMethods info id (iteration info i.methods) ms).2 }) = .ok (ms', st') → OnlyAdds st st' := by
      intro st1 o1 h x hx
      cases hd : st1.done.get n with
      | none =>
        rw [hd] at h
        rw [embed_only hv h x hx, o1 x hx]
      | some i =>
        rw [hd] at h
        rw [embed_only hv h x hx, ← o1 x hx]
        simp [addMethods_only hx]
    simp only [embed, bind, Except.bind] at h
    cases hp : st.pending.get n with
    | none =>
      simp only [hp, pure, Except.pure] at h
      exact key (fun _ _ => Iff.rfl) h
    | some i =>
      cases hv' : visit i st with
      | error e => simp only [hp, hv'] at h; cases h
      | ok st1 =>
        simp only [hp, hv'] at h
        exact key (hv _ _ _ hv') h

theorem dfs_only : ∀ {fuel : Nat} {i : ErrorIface} {st st' : St}, dfs env info fuel i st = .ok st' → OnlyAdds st st'
  | 0, _, _, _, h => by cases h
  | fuel + 1, i, st, st', h => by
    simp only [dfs, bind, Except.bind, pure, Except.pure] at h
    split at h
    · cases h
    rename_i v h1
    have := embed_only (fun i st st' h => dfs_only h) h1
    cases h
    intro x hx
    rw [← this x hx]
    split <;> rfl

theorem dfsAll_only {fuel : Nat} : ∀ {ns : List GoString} {st st' : St}, dfsAll env info fuel ns st = .ok st' → OnlyAdds st st'
  | [], st, st', h => by cases h; exact fun _ _ => Iff.rfl
  | n :: ns, st, st', h => by
    simp only [dfsAll, bind, Except.bind] at h
    cases hp : st.pending.get n with
    | none =>
      simp only [hp, pure, Except.pure] at h
      exact dfsAll_only h
    | some i =>
      cases hv' : dfs env info fuel i st with
      | error e => simp only [hp, hv'] at h; cases h
      | ok st1 =>
        simp only [hp, hv'] at h
        intro x hx
        rw [dfsAll_only h x hx, dfs_only hv' x hx]

end Serum.Interfaces
