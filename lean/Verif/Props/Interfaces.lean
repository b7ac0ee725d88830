import Verif.InterfaceFuel
import Verif.Props.Tracking
import Verif.Props.Claims

/-!
# C33: interfaces and the interfaces they embed

`Interfaces.find` is the collection of a package's interfaces (interfaces_collect.go).  What an interface
declares is specified in `Verif/Spec/InterfaceSpec.lean` without reference to the search: `Has`.

The theorems assume distinct interface names.  The Go code keeps interfaces in maps by name and also
collects types declared inside functions; `local_type_replaces` shows that an interface can get lost that
way.
-/

namespace Serum.Props.Interfaces
open Serum Serum.Interfaces Serum.IfaceSpec

/-- The names of the pending interfaces, in any order. -/
def Enumerates (names : Table ErrorIface → List GoString) : Prop := ∀ t, (names t).Perm (t.map Prod.fst)

/-- Distinct interface names, distinct method names within one interface, and no cyclic embedding (the
latter two are guaranteed by the Go compiler). -/
structure Program (decls : List IfaceDecl) : Prop where
  names : (decls.map IfaceDecl.name).Nodup
  methods : ∀ d ∈ decls, (methodNames d.elements).Nodup
  acyclic : ∃ rank : GoString → Nat, ∀ d ∈ decls, ∀ d' ∈ decls, ∀ id, .embedded (.name id d'.name) ∈ d.elements →
    rank d'.name < rank d.name

variable {env : Env} {info : Info} {decls : List IfaceDecl} {names : Table ErrorIface → List GoString}

private theorem name_inj {decls : List IfaceDecl} (h : (decls.map IfaceDecl.name).Nodup) :
    ∀ d ∈ decls, ∀ d' ∈ decls, d.name = d'.name → d = d' := by
  induction decls with
  | nil => simp
  | cons a l ih =>
    simp only [List.map_cons, List.nodup_cons, List.mem_map, not_exists, not_and] at h
    intro d hd d' hd' he
    rcases List.mem_cons.1 hd with rfl | h1 <;> rcases List.mem_cons.1 hd' with rfl | h2
    · rfl
    · exact (h.1 d' h2 he.symm).elim
    · exact (h.1 d h1 he).elim
    · exact ih h.2 d h1 d' h2 he

private theorem wellNamed (hp : Program decls) : ∃ rank, WellNamed decls rank := by
  obtain ⟨rank, hr⟩ := hp.acyclic
  exact ⟨rank, List.Pairwise.of_map IfaceDecl.name (fun a b hab h => hab (by rw [h])) hp.names, name_inj hp.names, hp.methods, hr⟩

private theorem check_embedded {d : IfaceDecl} {i : ErrorIface} {ds : List IfaceDiag} (h : check env info d = .ok (i, ds)) :
    i.name = d.name ∧ i.embedded = embeds d.elements := by
  have key : ∀ (es : List IfaceElement) (acc i : ErrorIface) (ds : List IfaceDiag), elements env info d.typ es acc = .ok (i, ds) →
      i.name = acc.name ∧ i.embedded = acc.embedded ++ embeds es := by
    intro es
    induction es with
    | nil => intro acc i ds h; cases h; simp [embeds]
    | cons e es ih =>
      intro acc i ds h
      cases e with
      | embedded e =>
        obtain ⟨h1, h2⟩ := ih _ _ _ h
        exact ⟨h1, by rw [h2]; simp [embeds]⟩
      | method m =>
        simp only [elements, bind, Except.bind, pure, Except.pure] at h
        split at h
        · cases h
        rename_i v hm
        split at h
        · cases h
        rename_i r hr
        cases h
        obtain ⟨h1, h2⟩ := ih _ _ _ hr
        rw [h1, h2]
        constructor <;> split <;> rfl
  have := key d.elements ⟨d.name, d.obj, [], []⟩ i ds h
  simpa using this

private theorem collect_pending {d : IfaceDecl} (hn : (decls.map IfaceDecl.name).Nodup) (hd : d ∈ decls) (he : embeds d.elements ≠ [])
    {st : St} (h : collect env info decls ⟨[], [], []⟩ = .ok st) : st.pending.get d.name ≠ none := by
  have keep : ∀ (ds : List IfaceDecl) (st st' : St), collect env info ds st = .ok st' → ∀ n, st.pending.get n ≠ none → st'.pending.get n ≠ none := by
    intro ds
    induction ds with
    | nil => intro st st' h n hp; cases h; exact hp
    | cons a ds ih =>
      intro st st' h n hp
      simp only [collect, bind, Except.bind] at h
      split at h
      · cases h
      refine ih _ _ h n ?_
      split
      · simp only [Table.get_put]; split <;> simp [hp]
      · split <;> exact hp
  have key : ∀ (ds : List IfaceDecl) (st st' : St), d ∈ ds → collect env info ds st = .ok st' → st'.pending.get d.name ≠ none := by
    intro ds
    induction ds with
    | nil => intro st st' hd; simp at hd
    | cons a ds ih =>
      intro st st' hd h
      simp only [collect, bind, Except.bind] at h
      split at h
      · cases h
      rename_i v hv
      rcases List.mem_cons.1 hd with rfl | hd
      · refine keep _ _ _ h _ ?_
        obtain ⟨h1, h2⟩ := check_embedded (i := v.1) (ds := v.2) hv
        rw [if_pos (by rw [h2]; exact List.length_pos_iff.2 he)]
        simp [Table.get_put, h1]
      · exact ih _ _ hd h
  exact key decls _ _ hd h

theorem finished' (hf : Fair env info) (hp : Program decls) (hn : Enumerates names) {fuel : Nat} {is : Table ErrorIface}
    {ds : List IfaceDiag} (h : find env info fuel names decls = .ok (is, ds)) :
    (∀ d ∈ decls, match is.get d.name with
      | some i => Final env decls (Compatible ds) d i
      | none => ∀ m S, ¬ Has env decls d m S) ∧
    (∀ x m t, x.msg = .incompatible m t → (x ∈ ds ↔ ∃ d ∈ decls, ClashIn env decls d x)) ∧
    (¬ Compatible ds → Conflict env decls) ∧ (∀ n i, is.get n = some i → ∃ d ∈ decls, d.name = n) ∧
    ∀ st, collect env info decls ⟨[], [], []⟩ = .ok st → Compatible st.diags ∧
      ∀ x, ds.count x = st.diags.count x + (decls.map fun d => clashes env decls d x).sum := by
  obtain ⟨rank, hw⟩ := wellNamed hp
  simp only [find, bind, Except.bind, pure, Except.pure] at h
  cases hc : collect env info decls ⟨[], [], []⟩ with
  | error e => simp [hc] at h
  | ok st =>
    simp only [hc] at h
    have hcol := collect_spec hw decls [] ⟨[], [], []⟩ st (by simpa using hp.names) (by simp)
      ⟨by simp, by simp, by simp, by simp, by simp [Compatible]⟩ hc
    simp only [List.nil_append] at hcol
    have hinv : Inv env info decls (fun _ => False) st :=
      ⟨hcol.pending, hcol.done, fun d hd _ => hcol.settled d hd, fun d hd h => hcol.fresh d hd (h.resolve_left id),
        fun x hx m t he => (hcol.compatible x hx m t he).elim⟩
    cases hd : Serum.Interfaces.dfsAll env info fuel (names st.pending) st with
    | error e => simp [hd] at h
    | ok st' =>
      simp only [hd, Except.ok.injEq, Prod.mk.injEq] at h
      obtain ⟨rfl, rfl⟩ := h
      obtain ⟨hi, _, hpn, hall, hpay⟩ := dfsAll_spec hf hw fuel _ st st' hinv hd
      have hfin : ∀ d ∈ decls, Finished env decls st' d := by
        intro d hd
        have hnone : st'.pending.get d.name = none := by
          cases hg : st.pending.get d.name with
          | none => exact hpn _ hg
          | some i =>
            refine hall _ ((hn st.pending).mem_iff.2 ?_)
            exact List.mem_map.2 ⟨_, Table.mem_of_get hg, rfl⟩
        rcases hi.settled d hd (fun h => h) with ⟨i, _, h2⟩ | h2
        · rw [hnone] at h2; cases h2
        · exact h2
      refine ⟨fun d hd => (hfin d hd).2.2, fun x m t hx => ⟨fun h => hi.clash x h m t hx, fun ⟨d, hd, h⟩ => (hfin d hd).2.1 x h⟩,
        hi.conflict, hi.done, fun _ he => ?_⟩
      cases he
      refine ⟨hcol.compatible, fun x => ?_⟩
      have h1 : _ = _ + _ + 0 := hpay x
      have h2 : owed env decls st' x = 0 := by
        unfold owed
        have : (decls.map fun d => if st'.pending.get d.name = none then 0 else clashes env decls d x) = decls.map fun _ => 0 :=
          List.map_congr_left fun d hd => if_pos (hfin d hd).1
        rw [this]
        have hz : ∀ l : List IfaceDecl, (l.map fun _ => 0).sum = 0 := by
          intro l; induction l with
          | nil => rfl
          | cons a l ih => simp [ih]
        exact hz decls
      have h3 : owed env decls st x = (decls.map fun d => clashes env decls d x).sum := by
        unfold owed
        refine congrArg List.sum (List.map_congr_left fun d hd => ?_)
        cases hg : st.pending.get d.name with
        | some i => simp
        | none =>
          have : embeds d.elements = [] := by
            refine Classical.byContradiction fun hne => collect_pending hp.names hd hne hc hg
          simp [clashes, this, clashesFrom]
      omega

theorem finished (hf : Fair env info) (hp : Program decls) (hn : Enumerates names) {fuel : Nat} {is : Table ErrorIface}
    {ds : List IfaceDiag} (h : find env info fuel names decls = .ok (is, ds)) :
    (∀ d ∈ decls, match is.get d.name with
      | some i => Final env decls (Compatible ds) d i
      | none => ∀ m S, ¬ Has env decls d m S) ∧
    (¬ Compatible ds → Conflict env decls) ∧ ∀ n i, is.get n = some i → ∃ d ∈ decls, d.name = n :=
  ⟨(finished' hf hp hn h).1, (finished' hf hp hn h).2.2.1, (finished' hf hp hn h).2.2.2.1⟩

/-- Each error method of an interface has one recorded code set. -/
theorem takes_unique (hf : Fair env info) (hp : Program decls) {d : IfaceDecl} (hd : d ∈ decls) {m : GoString} {S T : CodeSet}
    (h : Takes env decls d m S) (h' : Takes env decls d m T) : S = T := by
  obtain ⟨rank, hw⟩ := wellNamed hp
  exact takesFrom_unique hf hw h hd T h'

/-- **C33**, contents.  After the collection, an interface is recorded exactly if it has an error method;
the recorded methods are exactly those of itself and of all (transitively) embedded interfaces, and the codes
are those of its own declaration, or else of the first embedded interface having the method. -/
theorem recorded_exact_partial (hf : Fair env info) (hp : Program decls) (hn : Enumerates names) {fuel : Nat} {is : Table ErrorIface}
    {ds : List IfaceDiag} (h : find env info fuel names decls = .ok (is, ds)) {d : IfaceDecl} (hd : d ∈ decls) :
    ((∃ i, is.get d.name = some i) ↔ ∃ m S, Has env decls d m S) ∧
    ∀ i, is.get d.name = some i → i.obj = d.obj ∧
      (∀ m, (∃ em, i.methods.get m = some em) ↔ ∃ S, Has env decls d m S) ∧
      (∀ m S, (∃ em, i.methods.get m = some em ∧ em.codes = S) ↔ Takes env decls d m S) ∧
      (∀ m em, i.methods.get m = some em → Has env decls d m em.codes) ∧
      (∀ m S, Own env d m S → ∃ em, i.methods.get m = some em ∧ em.codes = S ∧ em.ident ≠ none) := by
  have hfin := (finished hf hp hn h).1 d hd
  cases hg : is.get d.name with
  | none =>
    rw [hg] at hfin
    refine ⟨⟨fun ⟨i, h⟩ => (nomatch h), fun ⟨m, S, h⟩ => (hfin m S h).elim⟩, fun i h => (nomatch h)⟩
  | some i =>
    rw [hg] at hfin
    simp only at hfin
    refine ⟨⟨fun _ => ?_, fun _ => ⟨i, rfl⟩⟩, ?_⟩
    · have hne := hfin.nonempty
      obtain ⟨e, es, he⟩ := List.exists_cons_of_ne_nil hne
      have : i.methods.get e.1 = some e.2 := by rw [he, Table.get_cons]; simp
      exact ⟨e.1, e.2.codes, hfin.holds.sound _ _ this⟩
    · rintro i' hi'
      cases hi'
      refine ⟨hfin.obj, fun m => ⟨fun ⟨em, hem⟩ => ⟨_, hfin.holds.sound m em hem⟩, fun ⟨S, hS⟩ => hfin.holds.complete m S hS⟩,
        fun m S => ⟨?_, fun hS => ?_⟩, hfin.holds.sound, ?_⟩
      · rintro ⟨em, hem, rfl⟩; exact hfin.holds.taken m em hem
      · obtain ⟨em, hem⟩ := hfin.holds.complete m S (Takes.has hS)
        exact ⟨em, hem, takes_unique hf hp hd (hfin.holds.taken m em hem) hS⟩
      intro m S hS
      obtain ⟨em, hem, hc⟩ := own_iff.1 hS
      refine ⟨em, hfin.own m em hem, hc, ?_⟩
      obtain ⟨im, _, _, r, _, _, _, _, _, _, _, _, rfl⟩ := hem
      simp

/-- **C33**, diagnostics.  Exactly these incompatibilities are reported: where an interface is embedded, for
each method whose recorded codes differ from those of the embedding interface and the interfaces embedded
before; the report lists exactly the differences. -/
theorem mismatches_exact_partial (hf : Fair env info) (hp : Program decls) (hn : Enumerates names) {fuel : Nat} {is : Table ErrorIface}
    {ds : List IfaceDiag} (h : find env info fuel names decls = .ok (is, ds)) (x : IfaceDiag) (hx : ∃ m t, x.msg = .incompatible m t) :
    x ∈ ds ↔ ∃ d ∈ decls, ClashIn env decls d x := by
  obtain ⟨m, t, hx⟩ := hx
  exact (finished' hf hp hn h).2.1 x m t hx

/-- **C33**, diagnostics.  Each of these incompatibilities is reported as often as there is an embedded interface it describes: nothing
is reported twice, however often an interface is embedded and in whatever order the search meets it. -/
theorem mismatches_counted_partial (hf : Fair env info) (hp : Program decls) (hn : Enumerates names) {fuel : Nat} {is : Table ErrorIface}
    {ds : List IfaceDiag} (h : find env info fuel names decls = .ok (is, ds)) (x : IfaceDiag) (hx : ∃ m t, x.msg = .incompatible m t) :
    ds.count x = (decls.map fun d => clashes env decls d x).sum := by
  obtain ⟨m, t, hx⟩ := hx
  have hf' := (finished' hf hp hn h).2.2.2.2
  have hc : ∃ st, collect env info decls ⟨[], [], []⟩ = .ok st := by
    simp only [find, bind, Except.bind] at h
    cases hc : collect env info decls ⟨[], [], []⟩ with
    | error e => simp [hc] at h
    | ok st => exact ⟨st, rfl⟩
  obtain ⟨st, hc⟩ := hc
  obtain ⟨h1, h2⟩ := hf' st hc
  rw [h2 x, List.count_eq_zero.2 fun hm => h1 x hm m t hx, Nat.zero_add]

/-- **C33**, diagnostics.  A mismatch is reported iff two equally named methods of one interface have
different code sets. -/
theorem mismatch_iff_partial (hf : Fair env info) (hp : Program decls) (hn : Enumerates names) {fuel : Nat} {is : Table ErrorIface}
    {ds : List IfaceDiag} (h : find env info fuel names decls = .ok (is, ds)) :
    (∃ d ∈ ds, ∃ m text, d.msg = .incompatible m text) ↔ Conflict env decls := by
  obtain ⟨hfin, hconf, _⟩ := finished hf hp hn h
  constructor
  · rintro ⟨d, hd, m, t, he⟩; exact hconf fun hc => hc d hd m t he
  · rintro ⟨d, hd, m, S, T, hS, hT, hne⟩
    refine Classical.byContradiction fun hno => ?_
    have hcomp : Compatible ds := fun d hd m t he => hno ⟨d, hd, m, t, he⟩
    have := hfin d hd
    cases hg : is.get d.name with
    | none => rw [hg] at this; exact this m S hS
    | some i =>
      rw [hg] at this
      simp only at this
      obtain ⟨em, hem⟩ := this.holds.complete m S hS
      refine hne fun c => ?_
      rw [← this.holds.agree hcomp m em S hem hS c, this.holds.agree hcomp m em T hem hT c]

private theorem method_reports {typ : GoType} {im : IfaceMethod} {o : Option ErrorMethod} {ds : List IfaceDiag}
    (h : methodDeclares env info typ im = .ok (o, ds)) (x : IfaceDiag) : x ∈ ds ↔ Unrecordable env info.implCause typ im x := by
  simp only [methodDeclares, bind, Except.bind, pure, Except.pure] at h
  cases hc : checkFunctionReturnsError env im.type with
  | error e => simp [hc] at h
  | ok v =>
    obtain ⟨b, cs⟩ := v
    obtain ⟨h1, h2, -⟩ := Claims.misplaced_exact env im.type b cs hc
    simp only [hc] at h
    unfold Unrecordable
    simp only [← h1]
    have hmap : x ∈ cs.map (fun d => (⟨d.at_, .claim d.msg⟩ : IfaceDiag)) ↔ b = false ∧ ∃ results r, im.type.results = some results ∧
        r ∈ results ∧ env.implError (env.typeOf r.typ) = true ∧ x = ⟨r.typ, .claim .errorNotLast⟩ := by
      simp only [List.mem_map, h2]
      constructor
      · rintro ⟨_, ⟨hb, results, r, a1, a2, a3, rfl⟩, rfl⟩; exact ⟨hb, results, r, a1, a2, a3, rfl⟩
      · rintro ⟨hb, results, r, a1, a2, a3, rfl⟩; exact ⟨_, ⟨hb, results, r, a1, a2, a3, rfl⟩, rfl⟩
    cases b with
    | false =>
      simp only [Bool.not_false, if_true, Except.ok.injEq, Prod.mk.injEq] at h
      obtain ⟨-, rfl⟩ := h
      rw [hmap]; simp
    | true =>
      have hmap : ∀ y, y ∉ cs.map (fun d => (⟨d.at_, .claim d.msg⟩ : IfaceDiag)) := by
        intro y hy
        obtain ⟨z, hz, -⟩ := List.mem_map.1 hy
        have := ((h2 z).1 hz).1
        cases this
      have hcs : cs.map (fun d => (⟨d.at_, .claim d.msg⟩ : IfaceDiag)) = [] := List.eq_nil_iff_forall_not_mem.2 hmap
      simp only [Bool.not_true, Bool.false_eq_true, if_false, hcs, List.nil_append] at h
      simp only [not_true_eq_false, false_and, true_and, false_or]
      cases hdoc : findErrorDocs im.doc with
      | error e =>
        simp only [hdoc, Except.ok.injEq, Prod.mk.injEq] at h
        obtain ⟨-, rfl⟩ := h
        simp
      | ok r =>
        simp only [hdoc] at h
        simp only [reduceCtorEq, false_and, exists_false, false_or, Except.ok.injEq]
        by_cases hp : r.param ≠ []
        · rw [if_pos hp] at h
          simp only [Except.ok.injEq, Prod.mk.injEq] at h
          obtain ⟨-, rfl⟩ := h
          simp only [List.mem_singleton]
          constructor
          · intro hx; exact ⟨r, rfl, .inl ⟨hp, hx⟩⟩
          · rintro ⟨r', rfl, hx | hx⟩
            · exact hx.2
            · exact (hp hx.1).elim
        · rw [if_neg hp] at h
          by_cases hz : r.codes.length = 0 ∧ r.none = false
          · rw [if_pos hz] at h
            by_cases hcause : im.ident.name = b!"Cause" ∧ info.implCause typ = true
            · rw [if_pos hcause] at h
              simp only [Except.ok.injEq, Prod.mk.injEq] at h
              obtain ⟨-, rfl⟩ := h
              simp only [List.not_mem_nil, false_iff]
              rintro ⟨r', rfl, hx | hx⟩
              · exact hp hx.1
              · exact hx.2.2.2.1 hcause
            · rw [if_neg hcause] at h
              simp only [Except.ok.injEq, Prod.mk.injEq] at h
              obtain ⟨-, rfl⟩ := h
              simp only [List.mem_singleton]
              constructor
              · intro hx; exact ⟨r, rfl, .inr ⟨Classical.not_not.1 hp, List.length_eq_zero_iff.1 hz.1, hz.2, hcause, hx⟩⟩
              · rintro ⟨r', rfl, hx | hx⟩
                · exact (hp hx.1).elim
                · exact hx.2.2.2.2
          · rw [if_neg hz] at h
            simp only [Except.ok.injEq, Prod.mk.injEq] at h
            obtain ⟨-, rfl⟩ := h
            simp only [List.not_mem_nil, false_iff]
            rintro ⟨r', rfl, hx | hx⟩
            · exact hp hx.1
            · exact hz ⟨by rw [hx.2.1]; rfl, hx.2.2.1⟩

private theorem elements_reports {typ : GoType} {x : IfaceDiag} : ∀ {es : List IfaceElement} {acc i : ErrorIface} {ds : List IfaceDiag},
    elements env info typ es acc = .ok (i, ds) → (x ∈ ds ↔ ∃ im, .method im ∈ es ∧ Unrecordable env info.implCause typ im x)
  | [], acc, i, ds, h => by cases h; simp
  | .embedded e :: es, acc, i, ds, h => by
    rw [elements_reports (es := es) h]; simp
  | .method im :: es, acc, i, ds, h => by
    simp only [elements, bind, Except.bind, pure, Except.pure] at h
    cases hm : methodDeclares env info typ im with
    | error e => simp [hm] at h
    | ok v =>
      obtain ⟨o, ds1⟩ := v
      simp only [hm] at h
      split at h
      · cases h
      rename_i r h2
      cases h
      rw [List.mem_append, method_reports hm, elements_reports h2]
      constructor
      · rintro (hx | ⟨im', h1, hx⟩)
        · exact ⟨im, by simp, hx⟩
        · exact ⟨im', by simp [h1], hx⟩
      · rintro ⟨im', h1, hx⟩
        simp only [List.mem_cons, IfaceElement.method.injEq] at h1
        rcases h1 with rfl | h1
        · exact .inl hx
        · exact .inr ⟨im', h1, hx⟩

private theorem collect_reports {x : IfaceDiag} : ∀ {ds : List IfaceDecl} {st st' : St}, collect env info ds st = .ok st' →
    (x ∈ st'.diags ↔ x ∈ st.diags ∨ ∃ d ∈ ds, ∃ im, .method im ∈ d.elements ∧ Unrecordable env info.implCause d.typ im x)
  | [], st, st', h => by cases h; simp
  | d :: ds, st, st', h => by
    simp only [collect, bind, Except.bind] at h
    cases hc : check env info d with
    | error e => simp [hc] at h
    | ok v =>
      obtain ⟨i, es⟩ := v
      simp only [hc] at h
      rw [collect_reports h]
      have e1 := elements_reports (x := x) hc
      have e2 : ∀ (a b c : St) (p q : Prop) [Decidable p] [Decidable q], (if p then a else if q then b else c).diags =
          if p then a.diags else if q then b.diags else c.diags := by intros; split <;> (try split) <;> rfl
      rw [e2]
      simp only [ite_self, List.mem_append, e1, List.mem_cons, exists_eq_or_imp, or_assoc]

/-- **C33/C36**, the other diagnostics of the collection: exactly the methods that cannot be recorded are reported. -/
theorem unrecordable_exact {fuel : Nat} {is : Table ErrorIface} {ds : List IfaceDiag}
    (h : find env info fuel names decls = .ok (is, ds)) (x : IfaceDiag) (hx : ¬ ∃ m t, x.msg = .incompatible m t) :
    x ∈ ds ↔ ∃ d ∈ decls, ∃ im, .method im ∈ d.elements ∧ Unrecordable env info.implCause d.typ im x := by
  simp only [find, bind, Except.bind, pure, Except.pure] at h
  cases hc : collect env info decls ⟨[], [], []⟩ with
  | error e => simp [hc] at h
  | ok st =>
    simp only [hc] at h
    cases hd : Serum.Interfaces.dfsAll env info fuel (names st.pending) st with
    | error e => simp [hd] at h
    | ok st' =>
      simp only [hd, Except.ok.injEq, Prod.mk.injEq] at h
      obtain ⟨rfl, rfl⟩ := h
      have := collect_reports (x := x) hc
      rw [dfsAll_only hd x hx, this]; simp

private theorem elements_cause {env' : Env} {info' : Info} (h : info'.implCause = info.implCause) (h1 : env'.implError = env.implError)
    (h2 : env'.typeOf = env.typeOf) {typ : GoType} : ∀ (es : List IfaceElement) (acc : ErrorIface),
    elements env info typ es acc = elements env' info' typ es acc
  | [], _ => rfl
  | .embedded _ :: es, _ => elements_cause h h1 h2 es _
  | .method m :: es, acc => by
    have hm : methodDeclares env' info' typ m = methodDeclares env info typ m := by
      have hmis : misplacedErrors env' = misplacedErrors env := by funext rs; simp only [misplacedErrors, h1, h2]
      simp only [methodDeclares, checkFunctionReturnsError, h, h1, h2, hmis]
    simp only [elements, hm]
    refine congrArg _ (funext fun v => ?_)
    obtain ⟨o, ds⟩ := v
    cases o <;> simp only [elements_cause h h1 h2 es]

private theorem collect_cause {env' : Env} {info' : Info} (h : info'.implCause = info.implCause) (h1 : env'.implError = env.implError)
    (h2 : env'.typeOf = env.typeOf) : ∀ (ds : List IfaceDecl) (st : St),
    collect env info ds st = collect env' info' ds st
  | [], _ => rfl
  | d :: ds, st => by
    simp only [collect, check, elements_cause h h1 h2]
    refine congrArg _ (funext fun v => ?_)
    exact collect_cause h h1 h2 ds _

theorem check_cause {env' : Env} {info' : Info} (h : info'.implCause = info.implCause) (h1 : env'.implError = env.implError)
    (h2 : env'.typeOf = env.typeOf) (d : IfaceDecl) : check env info d = check env' info' d :=
  elements_cause h h1 h2 _ _

/-- What is reported depends on the iteration orders only in its order. -/
theorem reports_same {env' : Env} {info' : Info} {names' : Table ErrorIface → List GoString} (hf : Fair env info) (hf' : Fair env' info')
    (hcause : info'.implCause = info.implCause) (h1 : env'.implError = env.implError) (h2 : env'.typeOf = env.typeOf)
    (hcl : ∀ d x, clashes env decls d x = clashes env' decls d x)
    (hp : Program decls) (hn : Enumerates names) (hn' : Enumerates names') {fuel fuel' : Nat} {is is' : Table ErrorIface}
    {ds ds' : List IfaceDiag} (h : find env info fuel names decls = .ok (is, ds)) (h' : find env' info' fuel' names' decls = .ok (is', ds')) :
    ds.Perm ds' := by
  have hc : ∃ st, collect env info decls ⟨[], [], []⟩ = .ok st := by
    have h := h
    simp only [find, bind, Except.bind] at h
    cases hc : collect env info decls ⟨[], [], []⟩ with
    | error e => simp [hc] at h
    | ok st => exact ⟨st, rfl⟩
  obtain ⟨st, hc⟩ := hc
  rw [List.perm_iff_count]
  intro x
  rw [((finished' hf hp hn h).2.2.2.2 st hc).2 x, ((finished' hf' hp hn' h').2.2.2.2 st (collect_cause hcause h1 h2 _ _ ▸ hc)).2 x]
  simp only [hcl]

/-- **C33**, determinism.  Two runs that differ in every iteration order record the same interfaces with the same methods and the
same codes, and report the same. -/
theorem order_independent_partial {info' : Info} {names' : Table ErrorIface → List GoString} (hf : Fair env info) (hf' : Fair env info')
    (hcause : info'.implCause = info.implCause)
    (hp : Program decls) (hn : Enumerates names) (hn' : Enumerates names') {fuel fuel' : Nat} {is is' : Table ErrorIface}
    {ds ds' : List IfaceDiag} (h : find env info fuel names decls = .ok (is, ds)) (h' : find env info' fuel' names' decls = .ok (is', ds')) :
    ds.Perm ds' ∧
    ∀ d ∈ decls, ((∃ i, is.get d.name = some i) ↔ ∃ i, is'.get d.name = some i) ∧
      ∀ i i', is.get d.name = some i → is'.get d.name = some i' → i.obj = i'.obj ∧
        ∀ m, (i.methods.get m).map ErrorMethod.codes = (i'.methods.get m).map ErrorMethod.codes := by
  refine ⟨reports_same hf hf' hcause rfl rfl (fun _ _ => rfl) hp hn hn' h h', fun d hd => ?_⟩
  obtain ⟨r1, r2⟩ := recorded_exact_partial hf hp hn h hd
  obtain ⟨r1', r2'⟩ := recorded_exact_partial hf' hp hn' h' hd
  refine ⟨r1.trans r1'.symm, fun i i' hi hi' => ?_⟩
  obtain ⟨s1, -, s3, -⟩ := r2 i hi
  obtain ⟨s1', -, s3', -⟩ := r2' i' hi'
  refine ⟨s1.trans s1'.symm, fun m => Option.ext fun S => ?_⟩
  rw [Option.map_eq_some_iff, Option.map_eq_some_iff, s3, s3']

/-- The collection ends, and panics only where a method has an empty parenthesised result list (C36): once
the declarations have been gone through, the search over embedding interfaces succeeds. -/
theorem search_ends {st : St} (h : collect env info decls ⟨[], [], []⟩ = .ok st) :
    ∃ is ds, find env info decls.length names decls = .ok (is, ds) := by
  obtain ⟨h1, h2⟩ := collect_keys decls ⟨[], [], []⟩ st (by intro n i h; simp at h) h
  obtain ⟨st', h3, _⟩ := dfsAll_fine (env := env) (info := info) decls.length (names st.pending) st h1 (by simpa using h2)
  exact ⟨st'.done, st'.diags, by simp [find, h, h3, bind, Except.bind, pure, Except.pure]⟩

/-- And going through the declarations succeeds unless a method's result list is empty. -/
theorem declarations_end (h : ∀ d ∈ decls, ∀ im, .method im ∈ d.elements → im.type.results ≠ some []) :
    ∃ st, collect env info decls ⟨[], [], []⟩ = .ok st := by
  have hm : ∀ typ (im : IfaceMethod), im.type.results ≠ some [] → ∃ v, methodDeclares env info typ im = .ok v := by
    intro typ im hne
    have hc : ∃ v, checkFunctionReturnsError env im.type = .ok v := by
      unfold checkFunctionReturnsError
      cases hr : im.type.results with
      | none => exact ⟨_, rfl⟩
      | some rs =>
        cases hl : rs.getLast? with
        | none => rw [List.getLast?_eq_none_iff] at hl; subst hl; exact (hne hr).elim
        | some l =>
          simp only [hl]
          by_cases he : env.implError (env.typeOf l.typ) = true
          · exact ⟨_, if_pos he⟩
          · exact ⟨_, if_neg he⟩
    obtain ⟨⟨b, cs⟩, hc⟩ := hc
    simp only [methodDeclares, hc, bind, Except.bind, pure, Except.pure]
    cases b with
    | false => exact ⟨_, rfl⟩
    | true =>
      cases findErrorDocs im.doc with
      | error e => exact ⟨_, rfl⟩
      | ok r =>
        simp only [Bool.not_true, Bool.false_eq_true, if_false]
        by_cases h1 : r.param ≠ []
        · exact ⟨_, if_pos h1⟩
        · rw [if_neg h1]
          by_cases h2 : r.codes.length = 0 ∧ r.none = false
          · rw [if_pos h2]
            by_cases h3 : im.ident.name = b!"Cause" ∧ info.implCause typ = true
            · exact ⟨_, if_pos h3⟩
            · exact ⟨_, if_neg h3⟩
          · exact ⟨_, if_neg h2⟩
  have he : ∀ typ (es : List IfaceElement) acc, (∀ im, .method im ∈ es → im.type.results ≠ some []) →
      ∃ v, elements env info typ es acc = .ok v := by
    intro typ es
    induction es with
    | nil => intro acc _; exact ⟨_, rfl⟩
    | cons e es ih =>
      intro acc h
      cases e with
      | embedded e => exact ih _ fun im hi => h im (by simp [hi])
      | method im =>
        obtain ⟨⟨o, ds⟩, hm⟩ := hm typ im (h im (by simp))
        simp only [elements, bind, Except.bind, hm, pure, Except.pure]
        have hv : ∀ acc, ∃ v, elements env info typ es acc = .ok v := fun acc => ih acc fun im hi => h im (by simp [hi])
        cases o with
        | none => obtain ⟨⟨a, ds'⟩, hv⟩ := hv acc; exact ⟨(a, ds ++ ds'), by rw [hv]⟩
        | some em =>
          obtain ⟨⟨a, ds'⟩, hv⟩ := hv { acc with methods := acc.methods.put im.ident.name em }
          exact ⟨(a, ds ++ ds'), by simp only [hv]⟩
  have : ∀ (ds : List IfaceDecl) st, (∀ d ∈ ds, ∀ im, .method im ∈ d.elements → im.type.results ≠ some []) →
      ∃ st', collect env info ds st = .ok st' := by
    intro ds
    induction ds with
    | nil => intro st _; exact ⟨_, rfl⟩
    | cons d ds ih =>
      intro st h
      obtain ⟨⟨i, es⟩, hv⟩ := he d.typ d.elements ⟨d.name, d.obj, [], []⟩ (h d (by simp))
      simp only [collect, check, bind, Except.bind, hv]
      exact ih _ fun d' hd' => h d' (by simp [hd'])
  exact this decls _ h

/-! ## Examples -/

/-- A method `name() error` with the given documentation. -/
def method (id : NodeId) (name doc : GoString) : IfaceElement :=
  .method ⟨id, ⟨id + 1, name, none⟩, ⟨[], some [⟨[], id + 2⟩], 0⟩, some doc⟩

/-- ```go
type A interface { /* Errors: a */ M() error }
type B interface { A; lib.I; /* Errors: none */ N() error }
type C interface { B; A; D }
type D interface { M() error  /* Errors: b */ }
``` -/
def exA : IfaceDecl := ⟨b!"A", 1, .interface 1, [method 10 b!"M" b!"Errors:\n\n - a -- always\n"]⟩
def exB : IfaceDecl := ⟨b!"B", 2, .interface 2, [.embedded (.name 20 b!"A"), .embedded (.qualified 21), method 22 b!"N" b!"Errors: none\n"]⟩
def exC : IfaceDecl := ⟨b!"C", 3, .interface 3, [.embedded (.name 30 b!"B"), .embedded (.name 31 b!"A")]⟩
def exD : IfaceDecl := ⟨b!"D", 4, .interface 4, [.embedded (.name 40 b!"C"), method 41 b!"M" b!"Errors:\n\n - b -- sometimes\n"]⟩

/-- `lib.I` has a method `P` with code `p`. -/
def exEnv : Env :=
  { Tracking.plainEnv [] with
    typeOf := fun n => if n = 21 then .named 7 else .other 0
    facts := ⟨fun _ => none, fun _ => none, fun _ => none, fun o => if o = 7 then some [(b!"P", [b!"p"])] else none⟩ }

def exInfo (reverse : Bool) : Info :=
  ⟨fun _ => false, fun n => n, fun t => if reverse then t.reverse else t, ⟨id, id, id, id⟩⟩

def exNames (t : Table ErrorIface) : List GoString := t.map Prod.fst

theorem exFair (r : Bool) : Fair exEnv (exInfo r) := by
  refine ⟨fun t => ?_, ⟨fun s => .refl s, fun s => .refl s, fun s => .refl s, fun s => .refl s⟩, ?_⟩
  · cases r
    · exact .refl t
    · exact List.reverse_perm t
  · intro o ms h
    simp only [exEnv] at h
    split at h
    · cases h; simp
    · cases h

/-- The rank used for the example: the number of interfaces embedded, transitively. -/
def exRank (n : GoString) : Nat := if n = b!"A" then 0 else if n = b!"B" then 1 else if n = b!"C" then 2 else 3

theorem exProgram : Program [exD, exC, exB, exA] := by
  refine ⟨by decide, ?_, exRank, ?_⟩
  · intro d hd
    simp only [List.mem_cons, List.not_mem_nil, or_false] at hd
    rcases hd with rfl | rfl | rfl | rfl <;> decide
  · intro d hd d' hd' id h
    simp only [List.mem_cons, List.not_mem_nil, or_false] at hd hd'
    rcases hd with rfl | rfl | rfl | rfl <;> rcases hd' with rfl | rfl | rfl | rfl <;>
      first | decide | simp [exA, exB, exC, exD, method] at h

/-- What is recorded, readable: names, methods with codes, and the incompatible methods. -/
def summary (r : Except Stop (Table ErrorIface × List IfaceDiag)) :
    Option (List (GoString × List (GoString × CodeSet)) × List (NodeId × GoString)) :=
  match r with
  | .error _ => none
  | .ok (is, ds) => some (is.map fun e => (e.1, e.2.methods.map fun m => (m.1, m.2.codes)),
      ds.filterMap fun d => match d.msg with | .incompatible m _ => some (d.at_, m) | _ => none)

/-- All four interfaces are recorded; the conflict is reported where `D` embeds `C`. -/
example : summary (find exEnv (exInfo false) 4 exNames [exD, exC, exB, exA]) =
    some ([(b!"D", [(b!"P", [b!"p"]), (b!"N", []), (b!"M", [b!"b"])]),
      (b!"C", [(b!"N", []), (b!"M", [b!"a"]), (b!"P", [b!"p"])]),
      (b!"B", [(b!"P", [b!"p"]), (b!"M", [b!"a"]), (b!"N", [])]), (b!"A", [(b!"M", [b!"a"])])],
      [(40, b!"M")]) := by rfl

/-- It is reported once. -/
example : ∃ x : IfaceDiag, (∃ m t, x.msg = .incompatible m t) ∧
    ([exD, exC, exB, exA].map fun d => clashes exEnv [exD, exC, exB, exA] d x).sum = 1 := by
  refine ⟨⟨40, .incompatible b!"M" b!"missing codes: [b] unused codes: [a]"⟩, ⟨_, _, rfl⟩, ?_⟩
  rw [← mismatches_counted_partial (exFair false) exProgram (fun _ => .refl _) (names := exNames) (fuel := 4) (h := rfl) _ ⟨_, _, rfl⟩]
  decide +kernel

/-- Without `D`, nothing is reported, whichever way the maps are iterated. -/
example : (summary (find exEnv (exInfo false) 3 exNames [exC, exB, exA])).map Prod.snd = some [] ∧
    (summary (find exEnv (exInfo true) 3 (List.reverse ∘ exNames) [exC, exB, exA])).map Prod.snd = some [] := by decide +kernel

/-- `Enumerates` for the orders used. -/
example : Enumerates exNames ∧ Enumerates (List.reverse ∘ exNames) :=
  ⟨fun _ => .refl _, fun _ => List.reverse_perm _⟩

/-- `C` has the method `P`, by way of `B` and the imported interface. -/
example : Has exEnv [exC, exB, exA] exC b!"P" [b!"p"] :=
  .embeds (d' := exB) (id := 30) (by simp [exC, exB]) (by simp)
    (.imports (id := 21) (ms := [(b!"P", [b!"p"])]) (by simp [exB]) ⟨7, rfl, rfl⟩ (by simp))

/-- The distinctness of names is needed: an interface type `A` without error methods declared inside some
function replaces the package's `B`-like interface of the same name, so that its embedded methods are
neither recorded nor checked.  (Finding 11; here the local type embeds another interface.) -/
theorem local_type_replaces :
    let packageB : IfaceDecl := ⟨b!"B", 2, .interface 2, [.embedded (.name 20 b!"A")]⟩
    let localB : IfaceDecl := ⟨b!"B", 5, .interface 5, [.embedded (.name 50 b!"Stringer")]⟩
    Has exEnv [packageB, exA, localB] packageB b!"M" [b!"a"] ∧
    summary (find exEnv (exInfo false) 3 exNames [packageB, exA, localB]) = some ([(b!"A", [(b!"M", [b!"a"])])], []) := by
  intro packageB localB
  refine ⟨.embeds (d' := exA) (id := 20) (by simp [packageB, exA]) (by simp) (.own ?_), by rfl⟩
  exact ⟨⟨10, ⟨11, b!"M", none⟩, ⟨[], some [⟨[], 12⟩], 0⟩, some b!"Errors:\n\n - a -- always\n"⟩, ⟨[b!"a"], [], false⟩,
    [⟨[], 12⟩], ⟨[], 12⟩, by simp [exA, method], rfl, rfl, rfl, rfl, by decide +kernel, rfl, .inl (by decide), rfl⟩

/-- An interface embedded from a dot-imported package is an identifier without local declaration: its
methods are not recorded, although its fact is available. -/
theorem dot_imported_ignored :
    let d : IfaceDecl := ⟨b!"B", 2, .interface 2, [.embedded (.name 21 b!"I")]⟩
    Recorded exEnv 21 [(b!"P", [b!"p"])] ∧
    summary (find exEnv (exInfo false) 1 exNames [d]) = some ([], []) :=
  ⟨⟨7, rfl, rfl⟩, by rfl⟩

end Serum.Props.Interfaces
