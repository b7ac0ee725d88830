import Verif.RunStages

/-! # What the stages of a run do -/

namespace Serum

/-! ## Functions -/

theorem collectFunctions_methods (d : Decls) (fs : List FnId) (n : GoString) :
    (collectFunctions d fs).2 n = fs.filter fun f => (d.recv f).isSome && (d.name f == n) := by
  have : ∀ (fs : List FnId) (acc : (GoString → Option FnId) × (GoString → List FnId)),
      (fs.foldl (addFunction d) acc).2 n = acc.2 n ++ fs.filter fun f => (d.recv f).isSome && (d.name f == n) := by
    intro fs
    induction fs with
    | nil => intro acc; simp
    | cons f fs ih =>
      intro acc
      rw [List.foldl_cons, ih]
      unfold addFunction
      cases hr : d.recv f with
      | none => simp [hr]
      | some r =>
        by_cases hn : n = d.name f
        · simp [hr, hn]
        · have : (d.name f == n) = false := by simpa using fun h => hn h.symm
          simp [hr, hn, this]
  unfold collectFunctions
  rw [this]; simp

theorem collectFunctions_functions (d : Decls) (fs : List FnId) (n : GoString) :
    (collectFunctions d fs).1 n = (fs.filter fun f => (d.recv f).isNone && (d.name f == n)).getLast? := by
  have : ∀ (fs : List FnId) (acc : (GoString → Option FnId) × (GoString → List FnId)),
      (fs.foldl (addFunction d) acc).1 n = ((fs.filter fun f => (d.recv f).isNone && (d.name f == n)).getLast?).or (acc.1 n) := by
    intro fs
    induction fs with
    | nil => intro acc; simp
    | cons f fs ih =>
      intro acc
      rw [List.foldl_cons, ih]
      unfold addFunction
      cases hr : d.recv f with
      | some r => simp [hr]
      | none =>
        by_cases hn : n = d.name f
        · subst hn
          simp only [Option.isNone_none, if_true, hr, Bool.true_and, BEq.rfl, List.filter_cons]
          cases fs.filter fun f' => (d.recv f').isNone && (d.name f' == d.name f) with
          | nil => simp
          | cons a l =>
            rw [List.getLast?_cons_cons]
            cases hl : (a :: l).getLast? with
            | none => simp at hl
            | some x => rfl
        · have : (d.name f == n) = false := by simpa using fun h => hn h.symm
          simp [hr, hn, this]
  unfold collectFunctions
  rw [this]; simp

namespace Package
variable {P : Package}

theorem methods_sub {n : GoString} {f : FnId} (h : f ∈ P.start.methods n) : f ∈ P.funcs := by
  have : f ∈ (collectFunctions P.decls P.funcs).2 n := h
  rw [collectFunctions_methods] at this
  exact (List.mem_filter.1 this).1

/-- `forEach` goes over the contents of the two maps. -/
theorem mem_collected {f : FnId} :
    f ∈ P.collected ↔ (∃ n, P.start.functions n = some f) ∨ ∃ n, f ∈ P.start.methods n := by
  have h1 : ∀ n, P.start.functions n = (P.funcs.filter fun f => (P.decls.recv f).isNone && (P.decls.name f == n)).getLast? :=
    collectFunctions_functions P.decls P.funcs
  have h2 : ∀ n, P.start.methods n = P.funcs.filter fun f => (P.decls.recv f).isSome && (P.decls.name f == n) :=
    collectFunctions_methods P.decls P.funcs
  have h3 : ∀ n, (collectFunctions P.decls P.funcs).1 n = (P.funcs.filter fun f => (P.decls.recv f).isNone && (P.decls.name f == n)).getLast? :=
    collectFunctions_functions P.decls P.funcs
  unfold collected
  simp only [List.mem_filter, Bool.or_eq_true, beq_iff_eq, h1, h2, h3, Bool.and_eq_true]
  constructor
  · rintro ⟨hf, hr | hl⟩
    · exact .inr ⟨P.decls.name f, hf, hr, rfl⟩
    · exact .inl ⟨_, hl⟩
  · rintro (⟨n, hl⟩ | ⟨n, hf, hr, hn⟩)
    · have hm := List.mem_filter.1 (List.mem_of_getLast? hl)
      simp only [Bool.and_eq_true, beq_iff_eq] at hm
      exact ⟨hm.1, .inr (by rw [hm.2.2]; exact hl)⟩
    · exact ⟨hf, .inl hr⟩

theorem collected_sub {f : FnId} (h : f ∈ P.collected) : f ∈ P.funcs := (List.mem_filter.1 h).1

theorem collected_nodup (h : P.funcs.Nodup) : P.collected.Nodup := h.filter _

theorem targets_outside {facts : Facts} {f : FnId} (h : P.env.funcs.length ≤ f) : (P.plan facts f).targets = [] :=
  Props.Bodies.targets_outside (env := P.at_ facts) h

/-- Calls stay within `functions`. -/
theorem closed (P : Package) (facts : Facts) : Props.CallGraph.ClosedIn (P.plan facts) (P.functions facts) := by
  intro f _ g hg
  unfold Calls at hg
  by_cases hlt : f < P.env.funcs.length
  · exact List.mem_append_right _ (List.mem_flatMap.2 ⟨f, List.mem_range.2 hlt, hg⟩)
  · rw [targets_outside (Nat.le_of_not_lt hlt)] at hg; cases hg

theorem funcs_sub {facts : Facts} {f : FnId} (h : f ∈ P.funcs) : f ∈ P.functions facts := by
  simp [functions, h]

end Package

/-! ## Facts -/

theorem tag_facts {env : Env} {d : Decls} {td : TypeDecls} {fuel : Nat} : ∀ {specs : List TypeSpec} {facts facts' : Facts} {ds : List TagDiag},
    findAndTagErrorTypes env d td fuel specs facts = .ok (facts', ds) →
    facts'.codes = facts.codes ∧ facts'.ctor = facts.ctor ∧ facts'.interface = facts.interface
  | [], facts, facts', ds, h => by cases h; exact ⟨rfl, rfl, rfl⟩
  | spec :: specs, facts, facts', ds, h => by
    unfold findAndTagErrorTypes at h
    split at h
    · exact tag_facts h
    · simp only [bind, Except.bind] at h
      split at h
      · cases h
      · split at h
        · cases h
        · rename_i r2 h2
          obtain ⟨facts2, ds2⟩ := r2
          cases h
          have := tag_facts h2
          split at this <;> exact this

namespace Interfaces

theorem exportMethods_other {info : Info} {o : Object} : ∀ {ms : Table ErrorMethod} {facts : Facts},
    (∀ e ∈ ms, ∀ i, e.2.ident = some i → info.methodObj i.id ≠ o) → (exportMethods info ms facts).codes o = facts.codes o
  | [], facts, _ => rfl
  | e :: ms, facts, h => by
    have ih := fun facts => exportMethods_other (info := info) (o := o) (ms := ms) (facts := facts) fun e' he => h e' (by simp [he])
    unfold exportMethods at ih ⊢
    rw [List.foldl_cons, ih]
    cases hi : e.2.ident with
    | none => rfl
    | some i => simp [Ne.symm (h e (by simp) i hi)]

theorem exportMethods_rest {info : Info} : ∀ {ms : Table ErrorMethod} {facts : Facts},
    (exportMethods info ms facts).ctor = facts.ctor ∧ (exportMethods info ms facts).errorType = facts.errorType ∧
    (exportMethods info ms facts).interface = facts.interface
  | [], facts => ⟨rfl, rfl, rfl⟩
  | e :: ms, facts => by
    have ih := fun facts => exportMethods_rest (info := info) (ms := ms) (facts := facts)
    unfold exportMethods at ih ⊢
    rw [List.foldl_cons]
    cases hi : e.2.ident with
    | none => exact ih facts
    | some i => exact ih { facts with codes := fun o => if o = info.methodObj i.id then some e.2.codes else facts.codes o }

theorem exportFacts_rest {info : Info} : ∀ {is : Table ErrorIface} {facts : Facts},
    (exportFacts info is facts).ctor = facts.ctor ∧ (exportFacts info is facts).errorType = facts.errorType
  | [], facts => ⟨rfl, rfl⟩
  | e :: is, facts => by
    have ih := fun facts => exportFacts_rest (info := info) (is := is) (facts := facts)
    unfold exportFacts at ih ⊢
    rw [List.foldl_cons, (ih _).1, (ih _).2]
    obtain ⟨h1, h2, h3⟩ := exportMethods_rest (info := info) (ms := info.order e.2.methods) (facts := exportInterface e.2 facts)
    rw [h1, h2]
    exact ⟨rfl, rfl⟩

theorem exportFacts_other {info : Info} (ho : ∀ {α : Type} (t : Table α), (info.order t).Perm t) {o : Object} :
    ∀ {is : Table ErrorIface} {facts : Facts},
    (∀ e ∈ is, ∀ m ∈ e.2.methods, ∀ i, m.2.ident = some i → info.methodObj i.id ≠ o) →
    (exportFacts info is facts).codes o = facts.codes o
  | [], facts, _ => rfl
  | e :: is, facts, h => by
    have ih := fun facts => exportFacts_other ho (o := o) (is := is) (facts := facts) fun e' he => h e' (by simp [he])
    unfold exportFacts at ih ⊢
    rw [List.foldl_cons, ih, exportMethods_other fun m hm i hi => h e (by simp) m ((ho _).mem_iff.1 hm) i hi]
    rfl

/-! ## Where the recorded method names come from -/

/-- Method names are those of declared methods, recorded with a name and codes satisfying `Q`. -/
def NamesFrom (Q : Ident → CodeSet → Prop) (ms : Table ErrorMethod) : Prop :=
  ∀ m ∈ ms, ∀ i, m.2.ident = some i → Q i m.2.codes

def AllNamesFrom (Q : Ident → CodeSet → Prop) (st : St) : Prop :=
  (∀ e ∈ st.done, NamesFrom Q e.2.methods) ∧ ∀ e ∈ st.pending, NamesFrom Q e.2.methods

variable {Q : Ident → CodeSet → Prop}

theorem mem_put {α : Type} {t : Table α} {k : GoString} {v : α} {e : GoString × α} (h : e ∈ t.put k v) : e = (k, v) ∨ e ∈ t := by
  rcases List.mem_cons.1 h with h | h
  · exact .inl h
  · exact .inr (List.mem_filter.1 h).1

theorem NamesFrom.put {ms : Table ErrorMethod} (h : NamesFrom Q ms) {k : GoString} {em : ErrorMethod}
    (hem : ∀ i, em.ident = some i → Q i em.codes) : NamesFrom Q (ms.put k em) := by
  intro m hm i hi
  rcases mem_put hm with rfl | hm
  · exact hem i hi
  · exact h m hm i hi

theorem addMethods_names {info : Info} {at_ : NodeId} : ∀ {add : List (GoString × CodeSet)} {ms : Table ErrorMethod},
    NamesFrom Q ms → NamesFrom Q (addMethods info at_ add ms).1
  | [], ms, h => h
  | (name, codes) :: add, ms, h => by
    unfold addMethods
    split
    · exact addMethods_names (h.put (by simp))
    · dsimp only
      split <;> exact addMethods_names h

/-- The method is declared in the given elements and declares the codes. -/
def DeclaresIn (env : Env) (info : Info) (typ : GoType) (es : List IfaceElement) (i : Ident) (S : CodeSet) : Prop :=
  ∃ m ds, .method m ∈ es ∧ m.ident = i ∧ methodDeclares env info typ m = .ok (some ⟨some i, S⟩, ds)

theorem elements_names {env : Env} {info : Info} {typ : GoType} : ∀ {es : List IfaceElement} {acc i : ErrorIface} {ds : List IfaceDiag},
    elements env info typ es acc = .ok (i, ds) → (∀ j S, DeclaresIn env info typ es j S → Q j S) → NamesFrom Q acc.methods →
    NamesFrom Q i.methods
  | [], acc, i, ds, h, _, ha => by cases h; exact ha
  | .embedded e :: es, acc, i, ds, h, hq, ha => by
    unfold elements at h
    exact elements_names h (fun j S ⟨m, ds, h1, h2⟩ => hq j S ⟨m, ds, by simp [h1], h2⟩) ha
  | .method m :: es, acc, i, ds, h, hq, ha => by
    unfold elements at h
    simp only [bind, Except.bind] at h
    split at h
    · cases h
    rename_i r hr
    obtain ⟨em, ds1⟩ := r
    simp only at h
    split at h
    · cases h
    rename_i r2 hr2
    cases h
    refine elements_names hr2 (fun j S ⟨m, ds, h1, h2⟩ => hq j S ⟨m, ds, by simp [h1], h2⟩) ?_
    cases em with
    | none => exact ha
    | some em =>
      refine NamesFrom.put ha ?_
      intro j hj
      have hid : em.ident = some m.ident := by
        unfold methodDeclares at hr
        simp only [bind, Except.bind, pure, Except.pure] at hr
        repeat' split at hr
        all_goals (cases hr; try rfl)
      rw [hid] at hj
      cases hj
      refine hq _ _ ⟨m, ds1, by simp, rfl, ?_⟩
      rw [hr]
      obtain ⟨a, b⟩ := em
      simp only at hid
      rw [hid]

theorem AllNamesFrom.get_done {st : St} (h : AllNamesFrom Q st) {n : GoString} {i : ErrorIface} (hg : st.done.get n = some i) :
    NamesFrom Q i.methods := h.1 _ (Table.mem_of_get hg)

theorem collect_names {env : Env} {info : Info} : ∀ {ds : List IfaceDecl} {st st' : St}, collect env info ds st = .ok st' →
    (∀ d ∈ ds, ∀ j S, DeclaresIn env info d.typ d.elements j S → Q j S) → AllNamesFrom Q st → AllNamesFrom Q st'
  | [], st, st', h, _, ha => by cases h; exact ha
  | d :: ds, st, st', h, hq, ha => by
    unfold collect at h
    simp only [bind, Except.bind] at h
    split at h
    · cases h
    rename_i r hr
    obtain ⟨i, diags⟩ := r
    have hi : NamesFrom Q i.methods := by
      unfold check at hr
      exact elements_names hr (hq d (by simp)) (by intro m hm; cases hm)
    refine collect_names h (fun d hd => hq d (by simp [hd])) ?_
    simp only
    split
    · exact ⟨ha.1, fun e he => by rcases mem_put he with rfl | he; exact hi; exact ha.2 e he⟩
    · split
      · exact ⟨fun e he => by rcases mem_put he with rfl | he; exact hi; exact ha.1 e he, ha.2⟩
      · exact ha

theorem embed_names {env : Env} {info : Info} {visit : ErrorIface → St → Except Stop St}
    (hv : ∀ i st st', visit i st = .ok st' → NamesFrom Q i.methods → AllNamesFrom Q st → AllNamesFrom Q st') :
    ∀ {es : List Embedded} {ms ms' : Table ErrorMethod} {st st' : St}, embed env info visit es ms st = .ok (ms', st') →
    NamesFrom Q ms → AllNamesFrom Q st → NamesFrom Q ms' ∧ AllNamesFrom Q st'
  | [], ms, ms', st, st', h, hm, ha => by cases h; exact ⟨hm, ha⟩
  | .qualified id :: es, ms, ms', st, st', h, hm, ha => by
    unfold embed at h
    split at h
    · exact embed_names hv h hm ha
    · exact embed_names hv h (addMethods_names hm) ha
  | .name id n :: es, ms, ms', st, st', h, hm, ha => by
    unfold embed at h
    simp only [bind, Except.bind, pure, Except.pure] at h
    cases hp : st.pending.get n with
    | none =>
      simp only [hp] at h
      split at h
      · exact embed_names hv h hm ha
      · exact embed_names hv h (addMethods_names hm) ha
    | some i =>
      simp only [hp] at h
      cases hv' : visit i st with
      | error e => simp only [hv'] at h; cases h
      | ok st1 =>
        simp only [hv'] at h
        have ha1 := hv i st st1 hv' (ha.2 _ (Table.mem_of_get hp)) ha
        split at h
        · exact embed_names hv h hm ha1
        · exact embed_names hv h (addMethods_names hm) ha1

theorem dfs_names {env : Env} {info : Info} : ∀ {fuel : Nat} {i : ErrorIface} {st st' : St}, dfs env info fuel i st = .ok st' →
    NamesFrom Q i.methods → AllNamesFrom Q st → AllNamesFrom Q st'
  | 0, i, st, st', h, _, _ => by cases h
  | fuel + 1, i, st, st', h, hi, ha => by
    unfold dfs at h
    simp only [bind, Except.bind] at h
    split at h
    · cases h
    rename_i r hr
    obtain ⟨ms, st1⟩ := r
    obtain ⟨h1, h2⟩ := embed_names (Q := Q) (fun i st st' h hi ha => dfs_names h hi ha) hr hi
      ⟨ha.1, fun e he => ha.2 e (List.mem_filter.1 he).1⟩
    simp only [pure, Except.pure] at h
    split at h
    · cases h
      exact ⟨fun e he => by rcases mem_put he with rfl | he; exact h1; exact h2.1 e he, h2.2⟩
    · cases h; exact h2

theorem dfsAll_names {env : Env} {info : Info} {fuel : Nat} : ∀ {ns : List GoString} {st st' : St}, dfsAll env info fuel ns st = .ok st' →
    AllNamesFrom Q st → AllNamesFrom Q st'
  | [], st, st', h, ha => by cases h; exact ha
  | n :: ns, st, st', h, ha => by
    unfold dfsAll at h
    simp only [bind, Except.bind] at h
    cases hp : st.pending.get n with
    | none => simp only [hp] at h; exact dfsAll_names h ha
    | some i =>
      simp only [hp] at h
      cases hv' : dfs env info fuel i st with
      | error e => simp only [hv'] at h; cases h
      | ok st1 =>
        simp only [hv'] at h
        exact dfsAll_names h (dfs_names hv' (ha.2 _ (Table.mem_of_get hp)) ha)

theorem find_names {env : Env} {info : Info} {fuel : Nat} {names : Table ErrorIface → List GoString} {decls : List IfaceDecl}
    {is : Table ErrorIface} {ds : List IfaceDiag} (h : find env info fuel names decls = .ok (is, ds))
    (hq : ∀ d ∈ decls, ∀ j S, DeclaresIn env info d.typ d.elements j S → Q j S) : ∀ e ∈ is, NamesFrom Q e.2.methods := by
  unfold find at h
  simp only [bind, Except.bind, pure, Except.pure] at h
  split at h
  · cases h
  rename_i st1 h1
  split at h
  · cases h
  rename_i st2 h2
  cases h
  exact (dfsAll_names h2 (collect_names h1 hq ⟨by simp, by simp⟩)).1

end Interfaces
end Serum
