import Verif.Claims

/-! # Lemmas about declarations -/

namespace Serum

theorem findParamName_inl {name : GoString} {is : List Ident} {pos q : Nat}
    (h : findParamName name pos is = .inl q) : q = pos + is.length ∧ ∀ i ∈ is, i.name ≠ name := by
  induction is generalizing pos with
  | nil => simp only [findParamName, Sum.inl.injEq] at h; simp [h]
  | cons i is ih =>
    simp only [findParamName] at h
    split at h
    · rename_i hn
      obtain ⟨h1, h2⟩ := ih h
      refine ⟨by simp; omega, ?_⟩
      intro j hj
      rcases List.mem_cons.1 hj with rfl | hj
      · exact hn
      · exact h2 j hj
    · simp at h

theorem findParamName_inr {name : GoString} {is : List Ident} {pos : Nat} {p : FuncCodeParam}
    (h : findParamName name pos is = .inr p) :
    ∃ pre post, is = pre ++ p.ident :: post ∧ p.position = pos + pre.length ∧ p.ident.name = name ∧
      ∀ i ∈ pre, i.name ≠ name := by
  induction is generalizing pos with
  | nil => simp [findParamName] at h
  | cons i is ih =>
    simp only [findParamName] at h
    split at h
    · rename_i hn
      obtain ⟨pre, post, h1, h2, h3, h4⟩ := ih h
      refine ⟨i :: pre, post, by simp [h1], by simp; omega, h3, ?_⟩
      intro j hj
      rcases List.mem_cons.1 hj with rfl | hj
      · exact hn
      · exact h4 j hj
    · rename_i hn
      simp only [Sum.inr.injEq] at h
      subst h
      exact ⟨[], is, by simp, by simp, by simpa using hn, by simp⟩

/-- The parameter names of a function in order; empty for unnamed parameters. -/
abbrev paramNames (params : List Field) : List Ident := params.flatMap Field.names

theorem findParamIn_some {name : GoString} {gs : List Field} {pos : Nat} {p : FuncCodeParam}
    (h : findParamIn name pos gs = some p) :
    ∃ pre post, paramNames gs = pre ++ p.ident :: post ∧ p.position = pos + pre.length ∧
      p.ident.name = name ∧ ∀ i ∈ pre, i.name ≠ name := by
  induction gs generalizing pos with
  | nil => simp [findParamIn] at h
  | cons g gs ih =>
    simp only [findParamIn] at h
    split at h
    · rename_i q hq
      obtain ⟨h1, h2⟩ := findParamName_inl hq
      obtain ⟨pre, post, h3, h4, h5, h6⟩ := ih h
      refine ⟨g.names ++ pre, post, by simp [paramNames] at h3 ⊢; exact h3, by simp; omega, h5, ?_⟩
      intro i hi
      rcases List.mem_append.1 hi with hi | hi
      · exact h2 i hi
      · exact h6 i hi
    · rename_i q hq
      simp only [Option.some.injEq] at h; subst h
      obtain ⟨pre, post, h1, h2, h3, h4⟩ := findParamName_inr hq
      exact ⟨pre, post ++ paramNames gs, by simp [paramNames, h1], h2, h3, h4⟩

theorem findParamIn_none {name : GoString} {gs : List Field} {pos : Nat} :
    findParamIn name pos gs = none ↔ ∀ i ∈ paramNames gs, i.name ≠ name := by
  induction gs generalizing pos with
  | nil => simp [findParamIn, paramNames]
  | cons g gs ih =>
    simp only [findParamIn]
    split
    · rename_i q hq
      obtain ⟨h1, h2⟩ := findParamName_inl hq
      rw [ih]
      simp only [paramNames, List.flatMap_cons, List.mem_append]
      exact ⟨fun h i hi => hi.elim (h2 i) (h i), fun h i hi => h i (.inr hi)⟩
    · rename_i q hq
      obtain ⟨pre, post, h1, h2, h3, h4⟩ := findParamName_inr hq
      simp only [reduceCtorEq, false_iff, Classical.not_forall, paramNames, List.flatMap_cons, List.mem_append, h1]
      exact ⟨q.ident, by simp, by simp [h3]⟩

/-- All parameters are named (in Go either all or none are). -/
def AllNamed (params : List Field) : Prop := ∀ g ∈ params, g.names ≠ []

theorem paramIdentLoop_named {params : List Field} (hn : AllNamed params) (target pos : Nat) (h : pos ≤ target) :
    paramIdentLoop target pos params = (paramNames params)[target - pos]? := by
  induction params generalizing pos with
  | nil => simp [paramIdentLoop, paramNames]
  | cons g gs ih =>
    have hg := hn g (by simp)
    simp only [paramIdentLoop, paramNames, List.flatMap_cons]
    split
    · rename_i hlt
      rw [List.getElem?_append_left (by omega)]
    · rename_i hlt
      rw [ih (fun g' h' => hn g' (by simp [h'])) _ (by omega), List.getElem?_append_right (by omega)]
      simp only [paramNames]
      congr 1; omega

theorem getParamIdent_named {type : FuncType} (hn : AllNamed type.params) (p : Nat) :
    getParamIdent type p = (paramNames type.params)[p]? := by
  rw [getParamIdent, paramIdentLoop_named hn p 0 (by omega)]; simp

theorem paramPositionLoop_named {params : List Field} (hn : AllNamed params) (o : ObjId) (pos : Nat) :
    paramPositionLoop o pos params = ((paramNames params).findIdx? (fun n => n.obj == some o)).map (pos + ·) := by
  induction params generalizing pos with
  | nil => simp [paramPositionLoop, paramNames]
  | cons g gs ih =>
    have hg := hn g (by simp)
    simp only [paramPositionLoop, paramNames, List.flatMap_cons, List.findIdx?_append]
    split
    · rename_i i hi; simp [hi]
    · rename_i hi
      rw [ih (fun g' h' => hn g' (by simp [h']))]
      simp only [hi, Option.none_or, Option.map_map]
      congr 1
      funext x; simp; omega

end Serum
