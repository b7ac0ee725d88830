import Verif.RunClaims

/-! # The facts known during a run, and exported by it -/

namespace Serum
open RunSpec

namespace Interfaces

theorem exportMethods_value {info : Info} {o : Object} {S : CodeSet} : ∀ {ms : Table ErrorMethod} {facts : Facts},
    (∀ m ∈ ms, ∀ i, m.2.ident = some i → info.methodObj i.id = o → m.2.codes = S) →
    (exportMethods info ms facts).codes o = some S ∨
      (exportMethods info ms facts).codes o = facts.codes o ∧ ∀ m ∈ ms, ∀ i, m.2.ident = some i → info.methodObj i.id ≠ o
  | [], facts, _ => .inr ⟨rfl, by simp⟩
  | m :: ms, facts, h => by
    have ih := fun facts => exportMethods_value (info := info) (o := o) (S := S) (ms := ms) (facts := facts)
      fun m' hm => h m' (by simp [hm])
    unfold exportMethods at ih ⊢
    rw [List.foldl_cons]
    cases hi : m.2.ident with
    | none =>
      refine (ih facts).imp id fun ⟨h1, h2⟩ => ⟨h1, fun m' hm' i hi' => ?_⟩
      rcases List.mem_cons.1 hm' with rfl | hm'
      · rw [hi] at hi'; cases hi'
      · exact h2 m' hm' i hi'
    | some i =>
      simp only
      by_cases ho : info.methodObj i.id = o
      · rcases ih { facts with codes := fun o => if o = info.methodObj i.id then some m.2.codes else facts.codes o } with h' | ⟨h1, h2⟩
        · exact .inl h'
        · left
          rw [h1]; simp [ho, h m (by simp) i hi ho]
      · refine (ih { facts with codes := fun o => if o = info.methodObj i.id then some m.2.codes else facts.codes o }).imp id
          fun ⟨h1, h2⟩ => ⟨?_, fun m' hm' j hj => ?_⟩
        · rw [h1]; simp [Ne.symm ho]
        · rcases List.mem_cons.1 hm' with rfl | hm'
          · rw [hi] at hj; cases hj; exact ho
          · exact h2 m' hm' j hj

theorem exportFacts_value {info : Info} (hp : ∀ {α : Type} (t : Table α), (info.order t).Perm t) {o : Object} {S : CodeSet} :
    ∀ {is : Table ErrorIface} {facts : Facts},
    (∀ e ∈ is, ∀ m ∈ e.2.methods, ∀ i, m.2.ident = some i → info.methodObj i.id = o → m.2.codes = S) →
    (exportFacts info is facts).codes o = some S ∨
      (exportFacts info is facts).codes o = facts.codes o ∧
        ∀ e ∈ is, ∀ m ∈ e.2.methods, ∀ i, m.2.ident = some i → info.methodObj i.id ≠ o
  | [], facts, _ => .inr ⟨rfl, by simp⟩
  | e :: is, facts, h => by
    have ih := fun facts => exportFacts_value hp (o := o) (S := S) (is := is) (facts := facts)
      fun e' he => h e' (by simp [he])
    unfold exportFacts at ih ⊢
    rw [List.foldl_cons]
    have h1 := exportMethods_value (info := info) (o := o) (S := S) (ms := info.order e.2.methods)
      (facts := exportInterface e.2 facts) fun m hm => h e (by simp) m ((hp _).mem_iff.1 hm)
    rcases ih (exportMethods info (info.order e.2.methods) (exportInterface e.2 facts)) with h' | ⟨h2, h3⟩
    · exact .inl h'
    · rcases h1 with h1 | ⟨h1, h4⟩
      · exact .inl (h2.trans h1)
      · refine .inr ⟨(h2.trans h1).trans rfl, fun e' he m hm i hi => ?_⟩
        rcases List.mem_cons.1 he with rfl | he
        · exact h4 m ((hp _).mem_iff.2 hm) i hi
        · exact h3 e' he m hm i hi

theorem exportFacts_interface {info : Info} {o : Object} {v : List (GoString × CodeSet)} :
    ∀ {is : Table ErrorIface} {facts : Facts},
    (∀ e ∈ is, e.2.obj = o → (e.2.methods.map fun m => (m.1, m.2.codes)) = v) →
    (exportFacts info is facts).interface o = some v ∨
      (exportFacts info is facts).interface o = facts.interface o ∧ ∀ e ∈ is, e.2.obj ≠ o
  | [], facts, _ => .inr ⟨rfl, by simp⟩
  | e :: is, facts, h => by
    have ih := fun facts => exportFacts_interface (info := info) (o := o) (v := v) (is := is) (facts := facts)
      fun e' he => h e' (by simp [he])
    unfold exportFacts at ih ⊢
    rw [List.foldl_cons]
    have hr := (exportMethods_rest (info := info) (ms := info.order e.2.methods) (facts := exportInterface e.2 facts)).2.2
    rcases ih (exportMethods info (info.order e.2.methods) (exportInterface e.2 facts)) with h' | ⟨h2, h3⟩
    · exact .inl h'
    · by_cases ho : e.2.obj = o
      · left
        rw [h2, hr]
        simp [exportInterface, ho, h e (by simp) ho]
      · right
        refine ⟨?_, fun e' he => ?_⟩
        · rw [h2, hr]; simp [exportInterface, Ne.symm ho]
        · rcases List.mem_cons.1 he with rfl | he
          · exact ho
          · exact h3 e' he

theorem exportFacts_interface_other {info : Info} {o : Object} {is : Table ErrorIface} {facts : Facts} (h : ∀ e ∈ is, e.2.obj ≠ o) :
    (exportFacts info is facts).interface o = facts.interface o := by
  rcases exportFacts_interface (info := info) (o := o) (v := []) (is := is) (facts := facts) (fun e he ho => (h e he ho).elim) with h1 | h1
  · rcases exportFacts_interface (info := info) (o := o) (v := [([], [])]) (is := is) (facts := facts) (fun e he ho => (h e he ho).elim) with h2 | h2
    · rw [h1] at h2; cases h2
    · exact h2.1
  · exact h1.1

/-! ## Tables have one entry per key -/

/-- One entry per key. -/
def Keyed {α : Type} (t : Table α) : Prop := (t.map Prod.fst).Nodup

theorem collect_keyed {env : Env} {info : Info} : ∀ {ds : List IfaceDecl} {st st' : St}, collect env info ds st = .ok st' →
    Keyed st.done → Keyed st'.done
  | [], st, st', h, hk => by cases h; exact hk
  | d :: ds, st, st', h, hk => by
    unfold collect at h
    simp only [bind, Except.bind] at h
    split at h
    · cases h
    refine collect_keyed h ?_
    split
    · exact hk
    · split
      · exact Table.keys_put hk _ _
      · exact hk

theorem embed_keyed {env : Env} {info : Info} {visit : ErrorIface → St → Except Stop St}
    (hv : ∀ i st st', visit i st = .ok st' → Keyed st.done → Keyed st'.done) :
    ∀ {es : List Embedded} {ms ms' : Table ErrorMethod} {st st' : St}, embed env info visit es ms st = .ok (ms', st') →
    Keyed st.done → Keyed st'.done
  | [], ms, ms', st, st', h, hk => by cases h; exact hk
  | .qualified id :: es, ms, ms', st, st', h, hk => by
    unfold embed at h
    split at h
    · exact embed_keyed hv h hk
    · exact embed_keyed hv h hk
  | .name id n :: es, ms, ms', st, st', h, hk => by
    unfold embed at h
    simp only [bind, Except.bind, pure, Except.pure] at h
    cases hp : st.pending.get n with
    | none =>
      simp only [hp] at h
      split at h
      · exact embed_keyed hv h hk
      · exact embed_keyed hv h hk
    | some i =>
      simp only [hp] at h
      cases hv' : visit i st with
      | error e => simp only [hv'] at h; cases h
      | ok st1 =>
        simp only [hv'] at h
        have hk1 := hv i st st1 hv' hk
        split at h
        · exact embed_keyed hv h hk1
        · exact embed_keyed hv h hk1

theorem dfs_keyed {env : Env} {info : Info} : ∀ {fuel : Nat} {i : ErrorIface} {st st' : St}, dfs env info fuel i st = .ok st' →
    Keyed st.done → Keyed st'.done
  | 0, i, st, st', h, _ => by cases h
  | fuel + 1, i, st, st', h, hk => by
    unfold dfs at h
    simp only [bind, Except.bind] at h
    split at h
    · cases h
    rename_i r hr
    obtain ⟨ms, st1⟩ := r
    have h2 := embed_keyed (fun i st st' h hk => dfs_keyed h hk) hr hk
    simp only [pure, Except.pure] at h
    split at h
    · cases h; exact Table.keys_put h2 _ _
    · cases h; exact h2

theorem dfsAll_keyed {env : Env} {info : Info} {fuel : Nat} : ∀ {ns : List GoString} {st st' : St}, dfsAll env info fuel ns st = .ok st' →
    Keyed st.done → Keyed st'.done
  | [], st, st', h, hk => by cases h; exact hk
  | n :: ns, st, st', h, hk => by
    unfold dfsAll at h
    simp only [bind, Except.bind] at h
    cases hp : st.pending.get n with
    | none => simp only [hp] at h; exact dfsAll_keyed h hk
    | some i =>
      simp only [hp] at h
      cases hv' : dfs env info fuel i st with
      | error e => simp only [hv'] at h; cases h
      | ok st1 =>
        simp only [hv'] at h
        exact dfsAll_keyed h (dfs_keyed hv' hk)

theorem find_keyed {env : Env} {info : Info} {fuel : Nat} {names : Table ErrorIface → List GoString} {decls : List IfaceDecl}
    {is : Table ErrorIface} {ds : List IfaceDiag} (h : find env info fuel names decls = .ok (is, ds)) : Keyed is := by
  unfold find at h
  simp only [bind, Except.bind, pure, Except.pure] at h
  split at h
  · cases h
  rename_i st1 h1
  split at h
  · cases h
  rename_i st2 h2
  cases h
  exact dfsAll_keyed h2 (collect_keyed h1 (by simp [Keyed]))

/-- The recorded interfaces, with their declarations. -/
theorem find_entries {env : Env} {info : Info} {names : Table ErrorIface → List GoString} {decls : List IfaceDecl}
    (hf : Fair env info) (hp : Props.Interfaces.Program decls) (hn : Props.Interfaces.Enumerates names) {fuel : Nat}
    {is : Table ErrorIface} {ds : List IfaceDiag} (h : find env info fuel names decls = .ok (is, ds)) {e : GoString × ErrorIface} (he : e ∈ is) :
    ∃ d ∈ decls, d.name = e.1 ∧ is.get d.name = some e.2 ∧ Final env decls (Compatible ds) d e.2 := by
  have hg := Table.get_of_mem (find_keyed h) (k := e.1) (v := e.2) he
  obtain ⟨h1, -, h3⟩ := Props.Interfaces.finished hf hp hn h
  obtain ⟨d, hd, hdn⟩ := h3 _ _ hg
  have := h1 d hd
  rw [hdn, hg] at this
  exact ⟨d, hd, hdn, by rw [hdn, hg], this⟩

end Interfaces

theorem methodDeclares_iff {P : Package} {facts : Facts} {im : IfaceMethod} {S : CodeSet} :
    MethodDeclares P im S ↔ Interfaces.Declared (P.at_ facts) im ⟨some im.ident, S⟩ := by
  constructor
  · rintro ⟨r, init, last, h1, h2, h3, h4, h5, rfl⟩
    exact ⟨r, _, last, h1, by simp, h2, h3, h4, h5, rfl⟩
  · rintro ⟨r, results, last, h1, h2, h3, h4, h5, h6, h7⟩
    obtain ⟨init, rfl⟩ := List.getLast?_eq_some_iff.1 h2
    cases h7
    exact ⟨r, init, last, h1, h3, h4, h5, h6, rfl⟩

theorem exportCtor_rest {env : Env} : ∀ {claims : List (FnId × FuncCodes)} {facts : Facts},
    (exportErrorConstructorFacts env claims facts).errorType = facts.errorType ∧
    (exportErrorConstructorFacts env claims facts).interface = facts.interface ∧
    (exportErrorConstructorFacts env claims facts).codes = facts.codes
  | [], facts => ⟨rfl, rfl, rfl⟩
  | (f, c) :: claims, facts => by
    have ih := fun facts => exportCtor_rest (env := env) (claims := claims) (facts := facts)
    unfold exportErrorConstructorFacts at ih ⊢
    rw [List.foldl_cons]
    dsimp only
    cases hp : c.param with
    | none => exact ih facts
    | some p => exact ih { facts with ctor := fun o => if o = env.funcObj f then some p.position else facts.ctor o }

/-- The same methods are recorded for imported interfaces, listed in any order. -/
def SameImports (env env' : Env) : Prop :=
  ∀ id m S, (∃ ms, IfaceSpec.Recorded env id ms ∧ (m, S) ∈ ms) ↔ ∃ ms, IfaceSpec.Recorded env' id ms ∧ (m, S) ∈ ms

theorem SameImports.symm {env env' : Env} (h : SameImports env env') : SameImports env' env := fun id m S => (h id m S).symm

theorem sameImports {env env' : Env} (h2 : env.typeOf = env'.typeOf) (h3 : env.facts.interface = env'.facts.interface) :
    SameImports env env' := by
  intro id m S
  unfold IfaceSpec.Recorded
  rw [h2, h3]

/-- Interface contents depend on types and the imported interface facts only. -/
theorem has_congr {env env' : Env} (h1 : env.implError = env'.implError) (h2 : env.typeOf = env'.typeOf)
    (h3 : SameImports env env') {decls : List IfaceDecl} {d : IfaceDecl} {m : GoString} {S : CodeSet}
    (h : IfaceSpec.Has env decls d m S) : IfaceSpec.Has env' decls d m S := by
  induction h with
  | own ho =>
    obtain ⟨im, r, results, last, g1, g2, g3, g4, g5, g6⟩ := ho
    exact .own ⟨im, r, results, last, g1, g2, g3, g4, by rw [← h1, ← h2]; exact g5, g6⟩
  | embeds g1 g2 _ ih => exact .embeds g1 g2 ih
  | imports g1 g2 g3 =>
    obtain ⟨ms, k1, k2⟩ := (h3 _ _ _).1 ⟨_, g2, g3⟩
    exact .imports g1 k1 k2

namespace Prepared
variable {P : Package} {S : Schedule} {strict : Bool} {s : Stages} {out : Outcome}

theorem tagged_rest (h : Prepared P S strict s out) :
    s.tagged.codes = P.env.facts.codes ∧ s.tagged.ctor = P.env.facts.ctor ∧ s.tagged.interface = P.env.facts.interface :=
  tag_facts h.tag

theorem has_iff (h : Prepared P S strict s out) {d : IfaceDecl} {m : GoString} {C : CodeSet} :
    IfaceSpec.Has (P.at_ s.tagged) P.ifaces d m C ↔ IfaceSpec.Has P.env P.ifaces d m C :=
  ⟨has_congr (env := P.at_ s.tagged) (env' := P.env) rfl rfl (sameImports rfl h.tagged_rest.2.2),
    has_congr (env := P.env) (env' := P.at_ s.tagged) rfl rfl (sameImports rfl h.tagged_rest.2.2.symm)⟩

theorem iface_fair (h : Prepared P S strict s out) (hS : S.Fair) (ho : Objects P) : Interfaces.Fair (P.at_ s.tagged) (P.ifaceInfo S) :=
  ⟨hS.tables, hS.ifaceMatch, fun o ms hm => ho.importedTables o ms (by rw [← h.tagged_rest.2.2]; exact hm)⟩

/-- Entries of the table of interfaces with a method name of their own come from that method's declaration. -/
theorem own_entry (h : Prepared P S strict s out) (hS : S.Fair) (ho : Objects P) (hp : Props.Interfaces.Program P.ifaces)
    {e : GoString × ErrorIface} (he : e ∈ s.ifaces) {m : GoString × ErrorMethod} (hm : m ∈ e.2.methods) {i : Ident} (hi : m.2.ident = some i) :
    ∃ d ∈ P.ifaces, ∃ im, .method im ∈ d.elements ∧ im.ident = i ∧ MethodDeclares P im m.2.codes := by
  obtain ⟨d, hd, -, -, hfin⟩ := Interfaces.find_entries (h.iface_fair hS ho) hp hS.ifaceNames h.find he
  have hg := Table.get_of_mem hfin.holds.nodup (k := m.1) (v := m.2) hm
  rcases hfin.ident _ _ hg with ⟨im, h1, -, h3⟩ | hn
  · have hid : m.2.ident = some im.ident := by
      obtain ⟨r, _, _, _, _, _, _, _, _, h9⟩ := h3
      rw [h9]
    rw [hi] at hid
    cases hid
    refine ⟨d, hd, im, h1, rfl, (methodDeclares_iff (facts := s.tagged)).2 ?_⟩
    rw [show (⟨some im.ident, m.2.codes⟩ : ErrorMethod) = m.2 from by cases hx : m.2; rw [hx] at hi; simp only at hi; simp [hi]]
    exact h3
  · rw [hi] at hn; cases hn

theorem collected_method (h : Prepared P S strict s out) (hS : S.Fair) (ho : Objects P) (hp : Props.Interfaces.Program P.ifaces)
    {d : IfaceDecl} (hd : d ∈ P.ifaces) {im : IfaceMethod} (him : .method im ∈ d.elements) (C : CodeSet) :
    s.collected.codes (P.methodObj im.ident.id) = some C ↔ MethodDeclares P im C := by
  have huniq : ∀ C', MethodDeclares P im C → MethodDeclares P im C' → C' = C := by
    intro C' h1 h2
    have := (methodDeclares_iff (facts := s.tagged).1 h1).unique (methodDeclares_iff.1 h2)
    cases this; rfl
  have hentry : ∀ e ∈ S.ifaceExport s.ifaces, ∀ m ∈ e.2.methods, ∀ i, m.2.ident = some i →
      (P.ifaceInfo S).methodObj i.id = P.methodObj im.ident.id → MethodDeclares P im m.2.codes := by
    intro e he m hm i hi hobj
    obtain ⟨d', hd', im', him', rfl, hx⟩ := h.own_entry hS ho hp ((hS.ifaceExport _).mem_iff.1 he) hm hi
    obtain ⟨-, rfl⟩ := ho.methods d' hd' im' him' d hd im him hobj
    exact hx
  rw [h.collected]
  by_cases hdec : ∃ C', MethodDeclares P im C'
  · obtain ⟨C', hC'⟩ := hdec
    have hval := Interfaces.exportFacts_value (info := P.ifaceInfo S) hS.tables (o := P.methodObj im.ident.id) (S := C')
      (is := S.ifaceExport s.ifaces) (facts := s.tagged) (fun e he m hm i hi hobj => by
        have := (methodDeclares_iff (facts := s.tagged).1 hC').unique (methodDeclares_iff.1 (hentry e he m hm i hi hobj))
        cases this; rfl)
    have hsome : (Interfaces.exportFacts (P.ifaceInfo S) (S.ifaceExport s.ifaces) s.tagged).codes (P.methodObj im.ident.id) = some C' := by
      rcases hval with hval | ⟨-, hno⟩
      · exact hval
      · exfalso
        obtain ⟨hfin, -, -⟩ := Props.Interfaces.finished (h.iface_fair hS ho) hp hS.ifaceNames h.find
        have hfin := hfin d hd
        have hdi : Interfaces.DeclaredIn (P.at_ s.tagged) d.elements im.ident.name ⟨some im.ident, C'⟩ :=
          ⟨im, him, rfl, methodDeclares_iff.1 hC'⟩
        cases hg : s.ifaces.get d.name with
        | none =>
          rw [hg] at hfin
          exact hfin _ _ (.own (Interfaces.own_iff.2 ⟨_, hdi, rfl⟩))
        | some i =>
          rw [hg] at hfin
          exact hno (d.name, i) ((hS.ifaceExport _).mem_iff.2 (Table.mem_of_get hg)) _ (Table.mem_of_get (hfin.own _ _ hdi)) _ rfl rfl
    rw [hsome]
    constructor
    · intro hx; cases hx; exact hC'
    · intro hC; rw [huniq C' hC hC']
  · have : (Interfaces.exportFacts (P.ifaceInfo S) (S.ifaceExport s.ifaces) s.tagged).codes (P.methodObj im.ident.id) = none := by
      rw [Interfaces.exportFacts_other (info := P.ifaceInfo S) hS.tables, h.tagged_rest.1]
      · exact ho.importedMethods d hd im him
      · intro e he m hm i hi hobj
        exact hdec ⟨_, hentry e he m hm i hi hobj⟩
    rw [this]
    exact ⟨fun hx => (nomatch hx), fun hx => (hdec ⟨_, hx⟩).elim⟩

theorem collected_other (h : Prepared P S strict s out) (hS : S.Fair) (ho : Objects P) (hp : Props.Interfaces.Program P.ifaces) {o : Object}
    (hother : ∀ d ∈ P.ifaces, ∀ im, .method im ∈ d.elements → P.methodObj im.ident.id ≠ o) : s.collected.codes o = P.env.facts.codes o := by
  rw [h.collected, Interfaces.exportFacts_other (info := P.ifaceInfo S) hS.tables, h.tagged_rest.1]
  intro e he m hm i hi
  obtain ⟨d, hd, im, him, rfl, -⟩ := h.own_entry hS ho hp ((hS.ifaceExport _).mem_iff.1 he) hm hi
  exact hother d hd im him

theorem collected_rest (h : Prepared P S strict s out) : s.collected.ctor = P.env.facts.ctor ∧ s.collected.errorType = s.tagged.errorType := by
  rw [h.collected]
  obtain ⟨h1, h2⟩ := Interfaces.exportFacts_rest (info := P.ifaceInfo S) (is := S.ifaceExport s.ifaces) (facts := s.tagged)
  exact ⟨h1.trans h.tagged_rest.2.1, h2⟩

/-- While bodies are analysed, nothing is recorded about the codes of the package's own functions. -/
theorem own_unknown (h : Prepared P S strict s out) (hS : S.Fair) (ho : Objects P) (hp : Props.Interfaces.Program P.ifaces) {f : FnId}
    (hf : f ∈ P.funcs) : s.facts.codes (P.env.funcObj f) = none := by
  rw [h.facts, exportCtor_rest.2.2, h.collected_other hS ho hp fun d hd im him => (ho.apart f hf d hd im him).symm]
  exact (ho.imported f hf).1

theorem out_rest (h : Prepared P S strict s out) (hS : S.Fair) (ho : Objects P) :
    out.facts.ctor = s.facts.ctor ∧ out.facts.errorType = s.tagged.errorType ∧ out.facts.interface = s.collected.interface ∧
    s.facts.interface = s.collected.interface ∧ s.facts.errorType = s.tagged.errorType ∧ s.facts.codes = s.collected.codes := by
  obtain ⟨-, -, h1, h2, h3⟩ := Props.Claims.exportCodes_spec P.start (S.codesExport s.claims) s.facts
    (h.claims_pairwise hS ho (hS.codesExport _))
  obtain ⟨g1, g2, g3⟩ := exportCtor_rest (env := P.start) (claims := S.ctorExport s.claims) (facts := s.collected)
  rw [← h.exported] at h1 h2 h3
  rw [← h.facts] at g1 g2 g3
  exact ⟨h1, (h2.trans g1).trans h.collected_rest.2, h3.trans g2, g2, g1.trans h.collected_rest.2, g3⟩

theorem out_codes (h : Prepared P S strict s out) (hS : S.Fair) (ho : Objects P) (hp : Props.Interfaces.Program P.ifaces) :
    (∀ f ∈ P.funcs, ∀ C, out.facts.codes (P.env.funcObj f) = some C ↔ ∃ c, Compared P f c ∧ C = c.codes) ∧
    (∀ d ∈ P.ifaces, ∀ im, .method im ∈ d.elements → ∀ C, out.facts.codes (P.methodObj im.ident.id) = some C ↔ MethodDeclares P im C) ∧
    (∀ o, (∀ f ∈ P.funcs, P.env.funcObj f ≠ o) → (∀ d ∈ P.ifaces, ∀ im, .method im ∈ d.elements → P.methodObj im.ident.id ≠ o) →
      out.facts.codes o = P.env.facts.codes o) := by
  obtain ⟨h1, h2, -⟩ := Props.Claims.exportCodes_spec P.start (S.codesExport s.claims) s.facts
    (h.claims_pairwise hS ho (hS.codesExport _))
  rw [← h.exported] at h1 h2
  have hcl : ∀ x ∈ S.codesExport s.claims, x.1 ∈ P.funcs ∧ Compared P x.1 x.2 := fun x hx => by
    have := (h.claims_iff hS ho.funcs (f := x.1) (c := x.2)).1 ((hS.codesExport _).mem_iff.1 hx)
    exact ⟨kept_sub this.1, this⟩
  have hfc := (h.out_rest hS ho).2.2.2.2.2
  refine ⟨fun f hf C => ?_, fun d hd im him C => ?_, fun o hof hoi => ?_⟩
  · constructor
    · intro hx
      by_cases hc : ∃ x ∈ S.codesExport s.claims, P.env.funcObj x.1 = P.env.funcObj f
      · obtain ⟨⟨g, c⟩, hm, he⟩ := hc
        obtain ⟨hg, hcomp⟩ := hcl _ hm
        have := ho.distinct g hg f hf he
        subst this
        have := h1 g c hm
        change out.facts.codes (P.env.funcObj g) = _ at this
        rw [this] at hx; cases hx
        exact ⟨c, hcomp, rfl⟩
      · rw [h2 _ (fun x hx he => hc ⟨x, hx, he⟩), h.own_unknown hS ho hp hf] at hx
        cases hx
    · rintro ⟨c, hc, rfl⟩
      exact h1 f c ((hS.codesExport _).mem_iff.2 ((h.claims_iff hS ho.funcs).2 hc))
  · rw [h2 _ (fun x hx he => ho.apart x.1 (hcl x hx).1 d hd im him he), hfc]
    exact h.collected_method hS ho hp hd him C
  · rw [h2 _ (fun x hx he => hof x.1 (hcl x hx).1 he), hfc]
    exact h.collected_other hS ho hp hoi

theorem out_ctor (h : Prepared P S strict s out) (hS : S.Fair) (ho : Objects P) :
    (∀ f ∈ P.funcs, ∀ n, s.facts.ctor (P.env.funcObj f) = some n ↔ ∃ c p, Compared P f c ∧ c.param = some p ∧ n = p.position) ∧
    (∀ o, (∀ f ∈ P.funcs, P.env.funcObj f ≠ o) → s.facts.ctor o = P.env.facts.ctor o) := by
  obtain ⟨h1, h2, -⟩ := Props.Claims.exportCtor_spec P.start (S.ctorExport s.claims) s.collected
    (h.claims_pairwise hS ho (hS.ctorExport _))
  rw [← h.facts] at h1 h2
  have hcl : ∀ x ∈ S.ctorExport s.claims, x.1 ∈ P.funcs ∧ Compared P x.1 x.2 := fun x hx => by
    have := (h.claims_iff hS ho.funcs (f := x.1) (c := x.2)).1 ((hS.ctorExport _).mem_iff.1 hx)
    exact ⟨kept_sub this.1, this⟩
  have himp : ∀ f ∈ P.funcs, s.collected.ctor (P.env.funcObj f) = none := fun f hf => by
    rw [h.collected_rest.1]; exact (ho.imported f hf).2
  refine ⟨fun f hf n => ?_, fun o hof => ?_⟩
  · constructor
    · intro hx
      by_cases hc : ∃ x ∈ S.ctorExport s.claims, P.env.funcObj x.1 = P.env.funcObj f
      · obtain ⟨⟨g, c⟩, hm, he⟩ := hc
        obtain ⟨hg, hcomp⟩ := hcl _ hm
        have := ho.distinct g hg f hf he
        subst this
        have := h1 g c hm
        change s.facts.ctor (P.env.funcObj g) = _ at this
        rw [this] at hx
        cases hpar : c.param with
        | none => rw [hpar] at hx; simp only at hx; exact absurd (hx.symm.trans (himp g hg)) (by simp)
        | some p => rw [hpar] at hx; cases hx; exact ⟨c, p, hcomp, hpar, rfl⟩
      · rw [h2 _ (fun x hx he => hc ⟨x, hx, he⟩), himp f hf] at hx
        cases hx
    · rintro ⟨c, p, hc, hpar, rfl⟩
      have := h1 f c ((hS.ctorExport _).mem_iff.2 ((h.claims_iff hS ho.funcs).2 hc))
      rw [hpar] at this
      exact this
  · rw [h2 _ (fun x hx he => hof x.1 (hcl x hx).1 he), h.collected_rest.1]

/-- The recorded interfaces. -/
theorem out_interface (h : Prepared P S strict s out) (hS : S.Fair) (ho : Objects P) (hp : Props.Interfaces.Program P.ifaces) :
    (∀ d ∈ P.ifaces, s.collected.interface d.obj =
      (s.ifaces.get d.name).map fun i => i.methods.map fun m => (m.1, m.2.codes)) ∧
    (∀ o, (∀ d ∈ P.ifaces, d.obj ≠ o) → s.collected.interface o = P.env.facts.interface o) := by
  have hent := fun {e} he => Interfaces.find_entries (h.iface_fair hS ho) hp hS.ifaceNames h.find (e := e) he
  rw [h.collected]
  refine ⟨fun d hd => ?_, fun o hother => ?_⟩
  · cases hg : s.ifaces.get d.name with
    | none =>
      rw [Interfaces.exportFacts_interface_other (info := P.ifaceInfo S) fun e he hobj => by
          obtain ⟨d', hd', hn, hg', hfin⟩ := hent ((hS.ifaceExport _).mem_iff.1 he)
          rw [hfin.obj] at hobj
          rw [ho.interfaces d' hd' d hd hobj, hg] at hg'; cases hg']
      rw [h.tagged_rest.2.2, ho.importedInterfaces d hd]; rfl
    | some i =>
      rcases Interfaces.exportFacts_interface (info := P.ifaceInfo S) (o := d.obj) (v := i.methods.map fun m => (m.1, m.2.codes))
        (is := S.ifaceExport s.ifaces) (facts := s.tagged) (fun e he hobj => by
          obtain ⟨d', hd', hn, hg', hfin⟩ := hent ((hS.ifaceExport _).mem_iff.1 he)
          rw [hfin.obj] at hobj
          rw [ho.interfaces d' hd' d hd hobj, hg] at hg'; cases hg'; rfl) with hx | ⟨hx, hno⟩
      · exact hx
      · exfalso
        have he := (hS.ifaceExport _).mem_iff.2 (Table.mem_of_get hg)
        obtain ⟨d', hd', hn, hg', hfin⟩ := hent (e := (d.name, i)) ((hS.ifaceExport _).mem_iff.1 he)
        refine hno _ he ?_
        rw [hfin.obj]
        have := hfin.name
        obtain ⟨h1, -, -⟩ := Props.Interfaces.finished (h.iface_fair hS ho) hp hS.ifaceNames h.find
        have h1 := h1 d hd
        rw [hg] at h1
        exact hfin.obj.symm.trans h1.obj
  · rw [Interfaces.exportFacts_interface_other (info := P.ifaceInfo S) fun e he hobj => by
        obtain ⟨d', hd', hn, hg', hfin⟩ := hent ((hS.ifaceExport _).mem_iff.1 he)
        exact hother d' hd' (hfin.obj ▸ hobj)]
    rw [h.tagged_rest.2.2]

end Prepared
end Serum
