import Verif.RunFacts

/-!
# Which types can be interfaces with error methods

Facts about interfaces are exported for the interfaces declared in the package only.
-/

namespace Serum
namespace Interfaces

variable {Q : Object → Prop}

/-- All collected interfaces satisfy `Q`. -/
def AllObjs (Q : Object → Prop) (st : St) : Prop := (∀ e ∈ st.done, Q e.2.obj) ∧ ∀ e ∈ st.pending, Q e.2.obj

theorem elements_obj {env : Env} {info : Info} {typ : GoType} : ∀ {es : List IfaceElement} {acc i : ErrorIface} {ds : List IfaceDiag},
    elements env info typ es acc = .ok (i, ds) → i.obj = acc.obj
  | [], acc, i, ds, h => by cases h; rfl
  | .embedded e :: es, acc, i, ds, h => by
    unfold elements at h
    have := elements_obj h
    exact this
  | .method m :: es, acc, i, ds, h => by
    unfold elements at h
    simp only [bind, Except.bind] at h
    split at h
    · cases h
    rename_i r hr
    obtain ⟨em, ds1⟩ := r
    simp only at h
    split at h
    · cases h
    rename_i r2 hr2
    cases h
    have := elements_obj hr2
    cases em <;> exact this

theorem collect_objs {env : Env} {info : Info} : ∀ {ds : List IfaceDecl} {st st' : St}, collect env info ds st = .ok st' →
    (∀ d ∈ ds, Q d.obj) → AllObjs Q st → AllObjs Q st'
  | [], st, st', h, _, ha => by cases h; exact ha
  | d :: ds, st, st', h, hq, ha => by
    unfold collect at h
    simp only [bind, Except.bind] at h
    split at h
    · cases h
    rename_i r hr
    obtain ⟨i, diags⟩ := r
    have hi : Q i.obj := by
      unfold check at hr
      rw [elements_obj hr]
      exact hq d (List.mem_cons_self ..)
    refine collect_objs h (fun d hd => hq d (List.mem_cons_of_mem _ hd)) ?_
    simp only
    split
    · exact ⟨ha.1, fun e he => by rcases mem_put he with rfl | he; exact hi; exact ha.2 e he⟩
    · split
      · exact ⟨fun e he => by rcases mem_put he with rfl | he; exact hi; exact ha.1 e he, ha.2⟩
      · exact ha

theorem embed_objs {env : Env} {info : Info} {visit : ErrorIface → St → Except Stop St}
    (hv : ∀ i st st', visit i st = .ok st' → Q i.obj → AllObjs Q st → AllObjs Q st') :
    ∀ {es : List Embedded} {ms ms' : Table ErrorMethod} {st st' : St}, embed env info visit es ms st = .ok (ms', st') →
    AllObjs Q st → AllObjs Q st'
  | [], ms, ms', st, st', h, ha => by cases h; exact ha
  | .qualified id :: es, ms, ms', st, st', h, ha => by
    unfold embed at h
    split at h
    · exact embed_objs hv h ha
    · exact embed_objs hv h ha
  | .name id n :: es, ms, ms', st, st', h, ha => by
    unfold embed at h
    simp only [bind, Except.bind, pure, Except.pure] at h
    cases hp : st.pending.get n with
    | none =>
      simp only [hp] at h
      split at h
      · exact embed_objs hv h ha
      · exact embed_objs hv h ha
    | some i =>
      simp only [hp] at h
      cases hv' : visit i st with
      | error e => simp only [hv'] at h; cases h
      | ok st1 =>
        simp only [hv'] at h
        have ha1 := hv i st st1 hv' (ha.2 _ (Table.mem_of_get hp)) ha
        split at h
        · exact embed_objs hv h ha1
        · exact embed_objs hv h ha1

theorem dfs_objs {env : Env} {info : Info} : ∀ {fuel : Nat} {i : ErrorIface} {st st' : St}, dfs env info fuel i st = .ok st' →
    Q i.obj → AllObjs Q st → AllObjs Q st'
  | 0, i, st, st', h, _, _ => by cases h
  | fuel + 1, i, st, st', h, hi, ha => by
    unfold dfs at h
    simp only [bind, Except.bind] at h
    split at h
    · cases h
    rename_i r hr
    obtain ⟨ms, st1⟩ := r
    have h2 := embed_objs (Q := Q) (fun i st st' h hi ha => dfs_objs h hi ha) hr ⟨ha.1, fun e he => ha.2 e (List.mem_filter.1 he).1⟩
    simp only [pure, Except.pure] at h
    split at h
    · cases h
      exact ⟨fun e he => by rcases mem_put he with rfl | he; exact hi; exact h2.1 e he, h2.2⟩
    · cases h; exact h2

theorem dfsAll_objs {env : Env} {info : Info} {fuel : Nat} : ∀ {ns : List GoString} {st st' : St}, dfsAll env info fuel ns st = .ok st' →
    AllObjs Q st → AllObjs Q st'
  | [], st, st', h, ha => by cases h; exact ha
  | n :: ns, st, st', h, ha => by
    unfold dfsAll at h
    simp only [bind, Except.bind] at h
    cases hp : st.pending.get n with
    | none => simp only [hp] at h; exact dfsAll_objs h ha
    | some i =>
      simp only [hp] at h
      cases hv' : dfs env info fuel i st with
      | error e => simp only [hv'] at h; cases h
      | ok st1 =>
        simp only [hv'] at h
        exact dfsAll_objs h (dfs_objs hv' (ha.2 _ (Table.mem_of_get hp)) ha)

/-- Collected interfaces are declared ones. -/
theorem find_objs {env : Env} {info : Info} {fuel : Nat} {names : Table ErrorIface → List GoString} {decls : List IfaceDecl}
    {is : Table ErrorIface} {ds : List IfaceDiag} (h : find env info fuel names decls = .ok (is, ds)) :
    ∀ e ∈ is, ∃ d ∈ decls, d.obj = e.2.obj := by
  unfold find at h
  simp only [bind, Except.bind, pure, Except.pure] at h
  split at h
  · cases h
  rename_i st1 h1
  split at h
  · cases h
  rename_i st2 h2
  cases h
  exact (dfsAll_objs (Q := fun o => ∃ d ∈ decls, d.obj = o) h2 (collect_objs h1 (fun d hd => ⟨d, hd, rfl⟩) ⟨by simp, by simp⟩)).1

end Interfaces

theorem exportCodes_interface {env : Env} : ∀ {claims : List (FnId × FuncCodes)} {facts : Facts},
    (exportErrorCodeFacts env claims facts).interface = facts.interface
  | [], _ => rfl
  | (f, c) :: claims, facts => by
    have ih := fun facts => exportCodes_interface (env := env) (claims := claims) (facts := facts)
    unfold exportErrorCodeFacts at ih ⊢
    rw [List.foldl_cons, ih]

end Serum
