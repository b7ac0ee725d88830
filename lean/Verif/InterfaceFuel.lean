import Verif.InterfaceGraph

/-! # Collecting interfaces: the search ends -/

namespace Serum.Interfaces

/-- Every entry stands under its own name. -/
def KeysOk (t : Table ErrorIface) : Prop := ∀ n i, t.get n = some i → i.name = n

theorem delete_length {α : Type} {t : Table α} {n : GoString} {v : α} (h : t.get n = some v) :
    (t.delete n).length < t.length := by
  unfold Table.delete
  refine Nat.lt_of_le_of_ne (List.length_filter_le _ _) fun he => ?_
  have := List.length_filter_eq_length_iff.1 he (n, v) (Table.mem_of_get h)
  simp at this

/-- A step that succeeds, without adding pending interfaces. -/
def Fine (st : St) (r : Except Stop St) : Prop :=
  ∃ st', r = .ok st' ∧ st'.pending.length ≤ st.pending.length ∧ KeysOk st'.pending

variable {env : Env} {info : Info}

theorem embed_fine {visit : ErrorIface → St → Except Stop St} {n : Nat}
    (hv : ∀ i st, KeysOk st.pending → st.pending.get i.name = some i → st.pending.length ≤ n → Fine st (visit i st)) :
    ∀ (es : List Embedded) (ms : Table ErrorMethod) (st : St), KeysOk st.pending → st.pending.length ≤ n →
    ∃ ms' st', embed env info visit es ms st = .ok (ms', st') ∧ st'.pending.length ≤ st.pending.length ∧ KeysOk st'.pending
  | [], ms, st, hk, _ => ⟨ms, st, rfl, Nat.le_refl _, hk⟩
  | .qualified id :: es, ms, st, hk, hl => by
    simp only [embed]
    cases importFact env (env.typeOf id) with
    | none => exact embed_fine hv es ms st hk hl
    | some add => exact embed_fine hv es _ { st with diags := _ } hk hl
  | .name id m :: es, ms, st, hk, hl => by
    simp only [embed, bind, Except.bind, pure, Except.pure]
    cases hp : st.pending.get m with
    | none =>
      cases st.done.get m with
      | none => exact embed_fine hv es ms st hk hl
      | some i => exact embed_fine hv es _ { st with diags := _ } hk hl
    | some i =>
      have hn := hk m i hp
      obtain ⟨st₁, h1, h2, h3⟩ := hv i st hk (hn ▸ hp) hl
      simp only [h1]
      cases st₁.done.get m with
      | none =>
        obtain ⟨ms', st', h4, h5, h6⟩ := embed_fine hv es ms st₁ h3 (Nat.le_trans h2 hl)
        exact ⟨ms', st', h4, Nat.le_trans h5 h2, h6⟩
      | some j =>
        obtain ⟨ms', st', h4, h5, h6⟩ := embed_fine hv es (addMethods info id (iteration info j.methods) ms).1
          { st₁ with diags := st₁.diags ++ (addMethods info id (iteration info j.methods) ms).2 } h3 (Nat.le_trans h2 hl)
        exact ⟨ms', st', h4, Nat.le_trans h5 h2, h6⟩

theorem dfs_fine : ∀ (fuel : Nat) (i : ErrorIface) (st : St), KeysOk st.pending → st.pending.get i.name = some i →
    st.pending.length ≤ fuel → Fine st (dfs env info fuel i st)
  | 0, i, st, _, hp, hl => by
    have := delete_length hp
    omega
  | fuel + 1, i, st, hk, hp, hl => by
    have hlt := delete_length hp
    obtain ⟨ms', st', h1, h2, h3⟩ := embed_fine (env := env) (info := info) (n := fuel) (fun j s a b c => dfs_fine fuel j s a b c) i.embedded i.methods
      { st with pending := st.pending.delete i.name } (by
        intro n j hj
        simp only [Table.get_delete] at hj
        split at hj
        · cases hj
        · exact hk n j hj) (by
        simp only; omega)
    simp only at h2
    simp only [dfs, bind, Except.bind, pure, Except.pure, h1]
    by_cases hm : ms'.length > 0
    · rw [if_pos hm]; exact ⟨_, rfl, by simp only; omega, h3⟩
    · rw [if_neg hm]; exact ⟨_, rfl, by omega, h3⟩

theorem dfsAll_fine (fuel : Nat) : ∀ (ns : List GoString) (st : St), KeysOk st.pending → st.pending.length ≤ fuel →
    Fine st (dfsAll env info fuel ns st)
  | [], st, hk, _ => ⟨st, rfl, Nat.le_refl _, hk⟩
  | n :: ns, st, hk, hl => by
    simp only [dfsAll, bind, Except.bind, pure, Except.pure]
    cases hp : st.pending.get n with
    | none => exact dfsAll_fine fuel ns st hk hl
    | some i =>
      obtain ⟨st₁, h1, h2, h3⟩ := dfs_fine (env := env) (info := info) fuel i st hk (hk n i hp ▸ hp) hl
      simp only [h1]
      obtain ⟨st', h4, h5, h6⟩ := dfsAll_fine fuel ns st₁ h3 (Nat.le_trans h2 hl)
      exact ⟨st', h4, Nat.le_trans h5 h2, h6⟩

theorem collect_keys : ∀ (ds : List IfaceDecl) (st st' : St), KeysOk st.pending → collect env info ds st = .ok st' →
    KeysOk st'.pending ∧ st'.pending.length ≤ st.pending.length + ds.length
  | [], st, st', hk, h => by
    simp only [collect, Except.ok.injEq] at h; subst h; exact ⟨hk, by simp⟩
  | d :: ds, st, st', hk, h => by
    simp only [collect, bind, Except.bind] at h
    cases hch : check env info d with
    | error e => simp [hch] at h
    | ok v =>
      obtain ⟨i, es⟩ := v
      simp only [hch] at h
      by_cases h1 : i.embedded.length > 0
      · rw [if_pos h1] at h
        obtain ⟨r1, r2⟩ := collect_keys ds _ st' (by
          intro n j hj
          simp only [Table.get_put] at hj
          split at hj
          · rename_i hn; cases hj; exact hn.symm
          · exact hk n j hj) h
        refine ⟨r1, Nat.le_trans r2 ?_⟩
        have : (st.pending.put i.name i).length ≤ st.pending.length + 1 := by
          simp only [Table.put, Table.delete, List.length_cons, Nat.add_le_add_iff_right]
          exact List.length_filter_le _ _
        simp only [List.length_cons]; omega
      · rw [if_neg h1] at h
        have : ∀ st₁ : St, st₁.pending = st.pending → collect env info ds st₁ = .ok st' →
            KeysOk st'.pending ∧ st'.pending.length ≤ st.pending.length + (d :: ds).length := by
          intro st₁ he h
          obtain ⟨r1, r2⟩ := collect_keys ds st₁ st' (he ▸ hk) h
          exact ⟨r1, by rw [he] at r2; simp only [List.length_cons]; omega⟩
        split at h
        · exact this _ (by rfl) h
        · exact this _ (by rfl) h

end Serum.Interfaces
