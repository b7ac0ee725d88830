import Verif.Spec.InterfaceSpec
import Verif.Props.Reports

/-! # Collecting interfaces: lemmas -/

namespace Serum

namespace Table
variable {α : Type}

@[simp] theorem get_nil (k : GoString) : get ([] : Table α) k = none := rfl

theorem get_cons (e : GoString × α) (m : Table α) (k : GoString) :
    get (e :: m) k = if e.1 = k then some e.2 else get m k := by
  by_cases h : e.1 = k
  · simp [get, h]
  · simp [get, h, beq_eq_false_iff_ne.2 h]

theorem get_delete (m : Table α) (k k' : GoString) :
    (m.delete k).get k' = if k' = k then none else m.get k' := by
  induction m with
  | nil => simp [delete]
  | cons e m ih =>
    by_cases h1 : e.1 = k
    · have : delete (e :: m) k = delete m k := by simp [delete, h1]
      rw [this, ih, get_cons]
      by_cases h2 : k' = k
      · simp [h2]
      · simp [h2, h1, Ne.symm h2]
    · have : delete (e :: m) k = e :: delete m k := by simp [delete, h1]
      rw [this, get_cons, ih, get_cons]
      by_cases h2 : e.1 = k'
      · have : k' ≠ k := h2 ▸ h1
        simp [h2, this]
      · simp [h2]

theorem get_put (m : Table α) (k : GoString) (v : α) (k' : GoString) :
    (m.put k v).get k' = if k' = k then some v else m.get k' := by
  rw [put, get_cons, get_delete]
  by_cases h : k' = k
  · simp [h]
  · simp [h, Ne.symm h]

theorem mem_of_get {m : Table α} {k : GoString} {v : α} (h : m.get k = some v) : (k, v) ∈ m := by
  simp only [get, Option.map_eq_some_iff] at h
  obtain ⟨⟨k', v'⟩, h1, h2⟩ := h
  have := List.find?_some h1
  have hm := List.mem_of_find?_eq_some h1
  simp only [beq_iff_eq] at this h2
  subst this; subst h2; exact hm

theorem get_isSome {m : Table α} {k : GoString} {v : α} (h : (k, v) ∈ m) : ∃ v', m.get k = some v' := by
  simp only [get]
  cases hf : m.find? (fun e => e.1 == k) with
  | none => simp only [List.find?_eq_none] at hf; simpa using hf _ h
  | some e => exact ⟨e.2, rfl⟩

theorem get_of_mem {m : Table α} (hn : (m.map Prod.fst).Nodup) {k : GoString} {v : α} (h : (k, v) ∈ m) :
    m.get k = some v := by
  induction m with
  | nil => simp at h
  | cons e m ih =>
    simp only [List.map_cons, List.nodup_cons, List.mem_map, not_exists, not_and] at hn
    rcases List.mem_cons.1 h with h | h
    · simp [get, ← h]
    · have hk : e.1 ≠ k := fun he => hn.1 _ h he.symm
      have := ih hn.2 h
      simpa [get, beq_eq_false_iff_ne.2 hk] using this

theorem keys_delete {m : Table α} (h : (m.map Prod.fst).Nodup) (k : GoString) : ((m.delete k).map Prod.fst).Nodup :=
  (List.filter_sublist.map _).nodup h

theorem keys_put {m : Table α} (h : (m.map Prod.fst).Nodup) (k : GoString) (v : α) : ((m.put k v).map Prod.fst).Nodup := by
  simp only [put, List.map_cons, List.nodup_cons]
  refine ⟨?_, keys_delete h k⟩
  simp [delete]

theorem eq_nil_iff {m : Table α} : m = [] ↔ ∀ k, m.get k = none := by
  constructor
  · rintro rfl k; rfl
  · intro h
    cases m with
    | nil => rfl
    | cons e m => have := h e.1; simp [get] at this

end Table

namespace Interfaces
open IfaceSpec

/-- What the environment of a run guarantees: iteration enumerates the entries, and methods of imported
interfaces have one entry each. -/
structure Fair (env : Env) (info : Info) : Prop where
  order : ∀ {α : Type} (t : Table α), (info.order t).Perm t
  matches_ : Props.Reports.AllOrders info.matchOrders
  facts : ∀ o ms, env.facts.interface o = some ms → (ms.map Prod.fst).Nodup

/-- No diagnostic about incompatible embedded interfaces. -/
def Compatible (ds : List IfaceDiag) : Prop := ∀ d ∈ ds, ∀ m t, d.msg ≠ .incompatible m t

theorem Compatible.append {ds es : List IfaceDiag} : Compatible (ds ++ es) ↔ Compatible ds ∧ Compatible es := by
  simp only [Compatible, List.mem_append]
  exact ⟨fun h => ⟨fun d hd => h d (.inl hd), fun d hd => h d (.inr hd)⟩,
    fun h d hd => hd.elim (h.1 d) (h.2 d)⟩

/-- Which entries there are after adding methods. -/
theorem addMethods_get (info : Info) (at_ : NodeId) : ∀ (add : List (GoString × CodeSet)) (ms : Table ErrorMethod) (m : GoString),
    (addMethods info at_ add ms).1.get m =
      match ms.get m with
      | some em => some em
      | none => (Table.get add m).map fun S => ⟨none, S⟩
  | [], ms, m => by cases h : ms.get m <;> simp [addMethods, h]
  | (name, codes) :: add, ms, m => by
    cases hn : ms.get name with
    | none =>
      simp only [addMethods, hn, addMethods_get info at_ add, Table.get_put]
      by_cases h : m = name
      · subst h; simp [hn, Table.get_cons]
      · simp only [h, if_false]
        cases ms.get m with
        | none => simp [Table.get_cons, Ne.symm h]
        | some em => rfl
    | some old =>
      have : (addMethods info at_ ((name, codes) :: add) ms).1 = (addMethods info at_ add ms).1 := by
        simp only [addMethods, hn]
        rcases checkIfErrorCodesMatch info.matchOrders old.codes codes with ⟨b, t⟩
        cases b <;> rfl
      rw [this, addMethods_get info at_ add]
      by_cases h : m = name
      · subst h; simp [hn]
      · cases ms.get m with
        | none => simp [Table.get_cons, Ne.symm h]
        | some em => rfl

theorem addMethods_keys (info : Info) (at_ : NodeId) : ∀ (add : List (GoString × CodeSet)) (ms : Table ErrorMethod),
    (ms.map Prod.fst).Nodup → ((addMethods info at_ add ms).1.map Prod.fst).Nodup
  | [], ms, h => h
  | (name, codes) :: add, ms, h => by
    cases hn : ms.get name with
    | none => simp only [addMethods, hn]; exact addMethods_keys info at_ add _ (Table.keys_put h _ _)
    | some old =>
      have : (addMethods info at_ ((name, codes) :: add) ms).1 = (addMethods info at_ add ms).1 := by
        simp only [addMethods, hn]
        rcases checkIfErrorCodesMatch info.matchOrders old.codes codes with ⟨b, t⟩
        cases b <;> rfl
      rw [this]; exact addMethods_keys info at_ add ms h

/-- Diagnostics appear exactly for added methods whose codes differ from those already there. -/
theorem addMethods_compatible {info : Info} (ho : Props.Reports.AllOrders info.matchOrders) (at_ : NodeId) :
    ∀ (add : List (GoString × CodeSet)) (ms : Table ErrorMethod), (add.map Prod.fst).Nodup →
    (Compatible (addMethods info at_ add ms).2 ↔
      ∀ m S em, (m, S) ∈ add → ms.get m = some em → Same em.codes S)
  | [], ms, _ => by simp [addMethods, Compatible]
  | (name, codes) :: add, ms, hn => by
    simp only [List.map_cons, List.nodup_cons, List.mem_map, not_exists, not_and] at hn
    have hne : ∀ m S, (m, S) ∈ add → m ≠ name := fun m S h he => hn.1 _ h he
    cases hg : ms.get name with
    | none =>
      simp only [addMethods, hg, addMethods_compatible ho at_ add _ hn.2, Table.get_put, List.mem_cons]
      constructor
      · intro h m S em hm hem
        rcases hm with hm | hm
        · simp only [Prod.mk.injEq] at hm; rw [hm.1, hg] at hem; cases hem
        · exact h m S em hm (by simp [hne m S hm, hem])
      · intro h m S em hm hem
        simp only [hne m S hm, if_false] at hem
        exact h m S em (.inr hm) hem
    | some old =>
      have hx := (Props.Reports.mismatch_exact info.matchOrders ho old.codes codes).1
      have ih := addMethods_compatible ho at_ add ms hn.2
      simp only [addMethods, hg, List.mem_cons]
      rcases hc : checkIfErrorCodesMatch info.matchOrders old.codes codes with ⟨b, t⟩
      rw [hc] at hx
      cases b with
      | true =>
        have hx : Same old.codes codes := hx.1 rfl
        simp only
        rw [ih]
        constructor
        · intro h m S em hm hem
          rcases hm with hm | hm
          · simp only [Prod.mk.injEq] at hm; rw [hm.1, hg] at hem; cases hem; rw [hm.2]; exact hx
          · exact h m S em hm hem
        · intro h m S em hm hem; exact h m S em (.inr hm) hem
      | false =>
        have hx : ¬ Same old.codes codes := fun h => Bool.false_ne_true (hx.2 h)
        simp only
        constructor
        · intro h; exact (h _ (List.mem_cons_self ..) _ _ rfl).elim
        · intro h; exact (hx (h name codes old (.inl rfl) hg)).elim

/-- Which diagnostics there are after adding methods. -/
theorem addMethods_diags {info : Info} (at_ : NodeId) :
    ∀ (add : List (GoString × CodeSet)) (ms : Table ErrorMethod), (add.map Prod.fst).Nodup → ∀ x,
    (x ∈ (addMethods info at_ add ms).2 ↔
      ∃ m S em, (m, S) ∈ add ∧ ms.get m = some em ∧ (checkIfErrorCodesMatch info.matchOrders em.codes S).1 = false ∧
        x = ⟨at_, .incompatible m (checkIfErrorCodesMatch info.matchOrders em.codes S).2⟩)
  | [], ms, _, x => by simp [addMethods]
  | (name, codes) :: add, ms, hn, x => by
    simp only [List.map_cons, List.nodup_cons, List.mem_map, not_exists, not_and] at hn
    have hne : ∀ m S, (m, S) ∈ add → m ≠ name := fun m S h he => hn.1 _ h he
    cases hg : ms.get name with
    | none =>
      simp only [addMethods, hg, addMethods_diags at_ add _ hn.2 x, Table.get_put]
      constructor
      · rintro ⟨m, S, em, h1, h2, h3⟩
        rw [if_neg (hne m S h1)] at h2
        exact ⟨m, S, em, by simp [h1], h2, h3⟩
      · rintro ⟨m, S, em, h1, h2, h3⟩
        rcases List.mem_cons.1 h1 with h1 | h1
        · cases h1; rw [hg] at h2; cases h2
        · exact ⟨m, S, em, h1, by rw [if_neg (hne m S h1)]; exact h2, h3⟩
    | some old =>
      have ih := addMethods_diags (info := info) at_ add ms hn.2 x
      have key : x ∈ (addMethods info at_ ((name, codes) :: add) ms).2 ↔
          ((checkIfErrorCodesMatch info.matchOrders old.codes codes).1 = false ∧
            x = ⟨at_, .incompatible name (checkIfErrorCodesMatch info.matchOrders old.codes codes).2⟩) ∨
          x ∈ (addMethods info at_ add ms).2 := by
        simp only [addMethods, hg]
        rcases checkIfErrorCodesMatch info.matchOrders old.codes codes with ⟨b, t⟩
        cases b <;> simp
      rw [key, ih]
      constructor
      · rintro (⟨h1, h2⟩ | ⟨m, S, em, h1, h2⟩)
        · exact ⟨name, codes, old, by simp, hg, h1, h2⟩
        · exact ⟨m, S, em, by simp [h1], h2⟩
      · rintro ⟨m, S, em, h1, h2, h3⟩
        rcases List.mem_cons.1 h1 with h1 | h1
        · cases h1; rw [hg] at h2; cases h2; exact .inl h3
        · exact .inr ⟨m, S, em, h1, h2, h3⟩

/-- A method table holds exactly the methods described by `R`, with the codes described by `T`; if nothing is incompatible (`N`), all
codes described for a method are the recorded ones. -/
structure Holds (N : Prop) (R T : GoString → CodeSet → Prop) (ms : Table ErrorMethod) : Prop where
  nodup : (ms.map Prod.fst).Nodup
  complete : ∀ m S, R m S → ∃ em, ms.get m = some em
  sound : ∀ m em, ms.get m = some em → R m em.codes
  agree : N → ∀ m em S, ms.get m = some em → R m S → Same em.codes S
  taken : ∀ m em, ms.get m = some em → T m em.codes

theorem Holds.mono {N N' : Prop} {R T : GoString → CodeSet → Prop} {ms : Table ErrorMethod} (h : Holds N R T ms) (hn : N' → N) :
    Holds N' R T ms := ⟨h.nodup, h.complete, h.sound, fun n => h.agree (hn n), h.taken⟩

theorem Holds.congr {N : Prop} {R R' T T' : GoString → CodeSet → Prop} {ms : Table ErrorMethod} (h : Holds N R T ms)
    (hr : ∀ m S, R m S ↔ R' m S) (ht : ∀ m S, T m S → T' m S) : Holds N R' T' ms := by
  have : R = R' := funext fun m => funext fun S => propext (hr m S)
  subst this
  exact ⟨h.nodup, h.complete, h.sound, h.agree, fun m em he => ht _ _ (h.taken m em he)⟩

/-- Adding the methods of another interface. -/
theorem Holds.add {N N' : Prop} {R R' T T' : GoString → CodeSet → Prop} {ms : Table ErrorMethod} {info : Info} {at_ : NodeId}
    (ho : Props.Reports.AllOrders info.matchOrders) {add : List (GoString × CodeSet)}
    (h : Holds N R T ms) (hnd : (add.map Prod.fst).Nodup)
    (hc : ∀ m S, R' m S → ∃ T, (m, T) ∈ add) (hs : ∀ m S, (m, S) ∈ add → R' m S)
    (ha : N → ∀ m T S, (m, T) ∈ add → R' m S → Same T S)
    (hN : N' → N ∧ Compatible (addMethods info at_ add ms).2)
    (ht : ∀ m S, T m S → T' m S) (hnew : ∀ m S, (m, S) ∈ add → (∀ S', ¬ R m S') → T' m S) :
    Holds N' (fun m S => R m S ∨ R' m S) T' (addMethods info at_ add ms).1 := by
  refine ⟨addMethods_keys info at_ add ms h.nodup, ?_, ?_, ?_, ?_⟩
  · intro m S hR
    rw [addMethods_get]
    rcases hR with hR | hR
    · obtain ⟨em, hem⟩ := h.complete m S hR; simp [hem]
    · obtain ⟨T, hT⟩ := hc m S hR
      cases hg : ms.get m with
      | some em => simp
      | none => simp [Table.get_of_mem hnd hT]
  · intro m em hem
    rw [addMethods_get] at hem
    cases hg : ms.get m with
    | some em' => rw [hg] at hem; cases hem; exact .inl (h.sound m _ hg)
    | none =>
      simp only [hg, Option.map_eq_some_iff] at hem
      obtain ⟨S, hS, rfl⟩ := hem
      exact .inr (hs m S (Table.mem_of_get hS))
  · intro n m em S hem hR
    obtain ⟨hN, hcomp⟩ := hN n
    rw [addMethods_compatible ho at_ add ms hnd] at hcomp
    rw [addMethods_get] at hem
    cases hg : ms.get m with
    | some em' =>
      rw [hg] at hem; cases hem
      rcases hR with hR | hR
      · exact h.agree hN m _ S hg hR
      · obtain ⟨T, hT⟩ := hc m S hR
        intro c; rw [hcomp m T _ hT hg c, ha hN m T S hT hR c]
    | none =>
      simp only [hg, Option.map_eq_some_iff] at hem
      obtain ⟨T, hT, rfl⟩ := hem
      rcases hR with hR | hR
      · obtain ⟨em, hem⟩ := h.complete m S hR; rw [hg] at hem; cases hem
      · exact ha hN m T S (Table.mem_of_get hT) hR
  · intro m em hem
    rw [addMethods_get] at hem
    cases hg : ms.get m with
    | some em' => rw [hg] at hem; cases hem; exact ht _ _ (h.taken m _ hg)
    | none =>
      simp only [hg, Option.map_eq_some_iff] at hem
      obtain ⟨S, hS, rfl⟩ := hem
      refine hnew m S (Table.mem_of_get hS) fun S' hR => ?_
      obtain ⟨em, hem⟩ := h.complete m S' hR; rw [hg] at hem; cases hem

end Interfaces
end Serum

namespace Serum.Interfaces
open IfaceSpec

/-- The method `im` of an interface declares the codes recorded in `em`. -/
def Declared (env : Env) (im : IfaceMethod) (em : ErrorMethod) : Prop :=
  ∃ r results last, im.type.results = some results ∧ results.getLast? = some last ∧
    env.implError (env.typeOf last.typ) = true ∧ findErrorDocs im.doc = .ok r ∧ r.param = [] ∧
    (r.codes ≠ [] ∨ r.none = true) ∧ em = ⟨some im.ident, r.codes⟩

theorem Declared.unique {env : Env} {im : IfaceMethod} {em em' : ErrorMethod} (h : Declared env im em)
    (h' : Declared env im em') : em = em' := by
  obtain ⟨r, _, _, _, _, _, h1, _, _, rfl⟩ := h
  obtain ⟨r', _, _, _, _, _, h2, _, _, rfl⟩ := h'
  rw [h1] at h2; cases h2; rfl

theorem compatible_claims (ds : List ClaimDiag) : Compatible (ds.map fun d => (⟨d.at_, .claim d.msg⟩ : IfaceDiag)) := by
  intro d hd m t
  obtain ⟨d', _, rfl⟩ := List.mem_map.1 hd
  simp

theorem compatible_one {d : IfaceDiag} (h : ∀ m t, d.msg ≠ .incompatible m t) : Compatible [d] := by
  intro d' hd; rw [List.mem_singleton.1 hd]; exact h

theorem checkReturns_iff {env : Env} {type : FuncType} {b : Bool} {ds : List ClaimDiag}
    (h : checkFunctionReturnsError env type = .ok (b, ds)) :
    b = true ↔ ∃ results last, type.results = some results ∧ results.getLast? = some last ∧
      env.implError (env.typeOf last.typ) = true := by
  unfold checkFunctionReturnsError at h
  cases hr : type.results with
  | none => simp only [hr, Except.ok.injEq, Prod.mk.injEq] at h; simp [← h.1]
  | some results =>
    simp only [hr] at h
    cases hl : results.getLast? with
    | none => simp [hl] at h
    | some last =>
      simp only [hl] at h
      by_cases hi : env.implError (env.typeOf last.typ) = true
      · simp only [hi, if_true, Except.ok.injEq, Prod.mk.injEq] at h; simp [← h.1, hl, hi]
      · simp only [hi, if_false, Except.ok.injEq, Prod.mk.injEq, Bool.false_eq_true] at h
        simp only [← h.1, Bool.false_eq_true, false_iff, not_exists, not_and]
        rintro r l hr' hl'
        cases hr'; rw [hl] at hl'; cases hl'; exact hi

theorem methodDeclares_spec {env : Env} {info : Info} {typ : GoType} {im : IfaceMethod} {o : Option ErrorMethod}
    {ds : List IfaceDiag} (h : methodDeclares env info typ im = .ok (o, ds)) :
    (∀ em, o = some em ↔ Declared env im em) ∧ Compatible ds := by
  unfold methodDeclares at h
  cases hc : checkFunctionReturnsError env im.type with
  | error e => simp [hc, bind, Except.bind] at h
  | ok v =>
    obtain ⟨b, cs⟩ := v
    have hb := checkReturns_iff hc
    simp only [hc, bind, Except.bind, pure, Except.pure] at h
    have hcs := compatible_claims cs
    cases b with
    | false =>
      simp only [Bool.not_false, if_true, Except.ok.injEq, Prod.mk.injEq] at h
      obtain ⟨rfl, rfl⟩ := h
      refine ⟨fun em => ⟨fun h => (nomatch h), ?_⟩, hcs⟩
      rintro ⟨r, results, last, h1, h2, h3, _⟩
      exact (Bool.false_ne_true (hb.2 ⟨results, last, h1, h2, h3⟩)).elim
    | true =>
      obtain ⟨results, last, h1, h2, h3⟩ := hb.1 rfl
      simp only [Bool.not_true, Bool.false_eq_true, if_false] at h
      cases hd : findErrorDocs im.doc with
      | error e =>
        simp only [hd, Except.ok.injEq, Prod.mk.injEq] at h
        obtain ⟨rfl, rfl⟩ := h
        refine ⟨fun em => ⟨fun h => by (first | cases h | nomatch h), ?_⟩, Compatible.append.2 ⟨hcs, compatible_one (by simp)⟩⟩
        rintro ⟨r, _, _, _, _, _, h4, _⟩; rw [hd] at h4; cases h4
      | ok r =>
        simp only [hd] at h
        by_cases hp : r.param = []
        · simp only [hp, ne_eq, not_true_eq_false, if_false] at h
          by_cases he : r.codes.length = 0 ∧ r.none = false
          · rw [if_pos he] at h
            have hno : ∀ em, ¬ Declared env im em := by
              rintro em ⟨r', _, _, _, _, _, h4, _, h5, _⟩
              rw [hd] at h4; cases h4
              rcases h5 with h5 | h5
              · exact h5 (List.length_eq_zero_iff.1 he.1)
              · rw [he.2] at h5; cases h5
            split at h
            · simp only [Except.ok.injEq, Prod.mk.injEq] at h
              obtain ⟨rfl, rfl⟩ := h
              exact ⟨fun em => ⟨fun h => (nomatch h), fun h => (hno em h).elim⟩, hcs⟩
            · simp only [Except.ok.injEq, Prod.mk.injEq] at h
              obtain ⟨rfl, rfl⟩ := h
              exact ⟨fun em => ⟨fun h => (nomatch h), fun h => (hno em h).elim⟩,
                Compatible.append.2 ⟨hcs, compatible_one (by simp)⟩⟩
          · rw [if_neg he] at h
            simp only [Except.ok.injEq, Prod.mk.injEq] at h
            obtain ⟨rfl, rfl⟩ := h
            have hD : Declared env im ⟨some im.ident, r.codes⟩ := by
              refine ⟨r, results, last, h1, h2, h3, hd, hp, ?_, rfl⟩
              by_cases hn : r.none = true
              · exact .inr hn
              · refine .inl fun hc => he ⟨by simp [hc], by simpa using hn⟩
            exact ⟨fun em => ⟨fun h => by cases h; exact hD, fun h => by rw [h.unique hD]⟩, hcs⟩
        · simp only [hp, ne_eq, not_false_eq_true, if_true, Except.ok.injEq, Prod.mk.injEq] at h
          obtain ⟨rfl, rfl⟩ := h
          refine ⟨fun em => ⟨fun h => (nomatch h), ?_⟩, Compatible.append.2 ⟨hcs, compatible_one (by simp)⟩⟩
          rintro ⟨r', _, _, _, _, _, h4, h5, _⟩; rw [hd] at h4; cases h4; exact (hp h5).elim

/-- The names of the methods of an interface, in order. -/
def methodNames (es : List IfaceElement) : List GoString :=
  es.filterMap fun | .embedded _ => none | .method m => some m.ident.name

/-- One of the elements is a method `m` declaring `em`. -/
def DeclaredIn (env : Env) (es : List IfaceElement) (m : GoString) (em : ErrorMethod) : Prop :=
  ∃ im, .method im ∈ es ∧ im.ident.name = m ∧ Declared env im em

theorem mem_methodNames {es : List IfaceElement} {im : IfaceMethod} (h : .method im ∈ es) :
    im.ident.name ∈ methodNames es := List.mem_filterMap.2 ⟨_, h, rfl⟩

theorem elements_spec {env : Env} {info : Info} {typ : GoType} : ∀ (es : List IfaceElement) (acc acc' : ErrorIface)
    (ds : List IfaceDiag), (methodNames es).Nodup → elements env info typ es acc = .ok (acc', ds) →
    acc'.name = acc.name ∧ acc'.obj = acc.obj ∧ acc'.embedded = acc.embedded ++ embeds es ∧ Compatible ds ∧
    ((acc.methods.map Prod.fst).Nodup → (acc'.methods.map Prod.fst).Nodup) ∧
    ∀ m em, acc'.methods.get m = some em ↔
      DeclaredIn env es m em ∨ (¬ ∃ em', DeclaredIn env es m em') ∧ acc.methods.get m = some em
  | [], acc, acc', ds, _, h => by
    simp only [elements, Except.ok.injEq, Prod.mk.injEq] at h
    obtain ⟨rfl, rfl⟩ := h
    refine ⟨rfl, rfl, by simp [embeds], by simp [Compatible], id, fun m em => ?_⟩
    simp [DeclaredIn]
  | .embedded e :: es, acc, acc', ds, hn, h => by
    simp only [elements] at h
    obtain ⟨h1, h2, h3, h4, h5, h6⟩ := elements_spec es _ acc' ds (by simpa [methodNames] using hn) h
    refine ⟨h1, h2, by simpa [embeds] using h3, h4, h5, fun m em => ?_⟩
    have : ∀ em, DeclaredIn env (.embedded e :: es) m em ↔ DeclaredIn env es m em := by simp [DeclaredIn]
    simp only [this]; exact h6 m em
  | .method im :: es, acc, acc', ds, hn, h => by
    simp only [elements, bind, Except.bind] at h
    cases hm : methodDeclares env info typ im with
    | error e => simp [hm] at h
    | ok v =>
      obtain ⟨o, ds₁⟩ := v
      simp only [hm] at h
      have hn' : im.ident.name ∉ methodNames es ∧ (methodNames es).Nodup := by simpa [methodNames] using hn
      obtain ⟨hd, hcomp⟩ := methodDeclares_spec hm
      split at h
      · cases h
      · rename_i v heq
        obtain ⟨acc₂, ds₂⟩ := v
        simp only [pure, Except.pure, Except.ok.injEq, Prod.mk.injEq] at h
        obtain ⟨rfl, rfl⟩ := h
        obtain ⟨h1, h2, h3, h4, h5, h6⟩ := elements_spec es _ _ _ hn'.2 heq
        have hnot : ∀ em, ¬ DeclaredIn env es im.ident.name em := by
          rintro em ⟨im', hi, he, _⟩; exact hn'.1 (he ▸ mem_methodNames hi)
        cases o with
        | none =>
          refine ⟨h1, h2, by simpa [embeds] using h3, Compatible.append.2 ⟨hcomp, h4⟩, h5, fun m em => ?_⟩
          have : ∀ em, DeclaredIn env (.method im :: es) m em ↔ DeclaredIn env es m em := by
            intro em
            simp only [DeclaredIn, List.mem_cons]
            constructor
            · rintro ⟨im', hi | hi, he, hD⟩
              · cases hi; exact nomatch (hd em).2 hD
              · exact ⟨im', hi, he, hD⟩
            · rintro ⟨im', hi, he, hD⟩; exact ⟨im', .inr hi, he, hD⟩
          simp only [this]; exact h6 m em
        | some em₀ =>
          have hD := (hd em₀).1 rfl
          refine ⟨h1, h2, by simpa [embeds] using h3, Compatible.append.2 ⟨hcomp, h4⟩, fun hk => h5 (Table.keys_put hk _ _), fun m em => ?_⟩
          rw [h6 m em, Table.get_put]
          have : ∀ em, DeclaredIn env (.method im :: es) m em ↔ (m = im.ident.name ∧ em = em₀) ∨ DeclaredIn env es m em := by
            intro em
            simp only [DeclaredIn, List.mem_cons]
            constructor
            · rintro ⟨im', hi | hi, he, hD'⟩
              · cases hi; exact .inl ⟨he.symm, hD'.unique hD⟩
              · exact .inr ⟨im', hi, he, hD'⟩
            · rintro (⟨rfl, rfl⟩ | ⟨im', hi, he, hD'⟩)
              · exact ⟨im, .inl rfl, rfl, hD⟩
              · exact ⟨im', .inr hi, he, hD'⟩
          simp only [this]
          by_cases he : m = im.ident.name
          · subst he
            simp [hnot, eq_comm]
          · simp [he]

theorem check_spec {env : Env} {info : Info} {d : IfaceDecl} {i : ErrorIface} {ds : List IfaceDiag}
    (hn : (methodNames d.elements).Nodup) (h : check env info d = .ok (i, ds)) :
    i.name = d.name ∧ i.obj = d.obj ∧ i.embedded = embeds d.elements ∧ Compatible ds ∧
    (i.methods.map Prod.fst).Nodup ∧
    ∀ m em, i.methods.get m = some em ↔ DeclaredIn env d.elements m em := by
  obtain ⟨h1, h2, h3, h4, h5, h6⟩ := elements_spec _ _ _ _ hn h
  refine ⟨h1, h2, by simpa using h3, h4, h5 (by simp), fun m em => ?_⟩
  rw [h6]; simp

theorem own_iff {env : Env} {d : IfaceDecl} {m : GoString} {S : CodeSet} :
    Own env d m S ↔ ∃ em, DeclaredIn env d.elements m em ∧ em.codes = S := by
  constructor
  · rintro ⟨im, r, results, last, h1, h2, h3, h4, h5, h6, h7, h8, rfl⟩
    exact ⟨_, ⟨im, h1, h2, r, results, last, h3, h4, h5, h6, h7, h8, rfl⟩, rfl⟩
  · rintro ⟨em, ⟨im, h1, h2, r, results, last, h3, h4, h5, h6, h7, h8, rfl⟩, rfl⟩
    exact ⟨im, r, results, last, h1, h2, h3, h4, h5, h6, h7, h8, rfl⟩

theorem declaredIn_unique {env : Env} {es : List IfaceElement} (hn : (methodNames es).Nodup) {m : GoString}
    {em em' : ErrorMethod} (h : DeclaredIn env es m em) (h' : DeclaredIn env es m em') : em = em' := by
  obtain ⟨im, h1, h2, h3⟩ := h
  obtain ⟨im', h1', h2', h3'⟩ := h'
  suffices im = im' by subst this; exact h3.unique h3'
  clear h3 h3'
  induction es with
  | nil => simp at h1
  | cons e es ih =>
    cases e with
    | embedded e =>
      simp only [List.mem_cons, reduceCtorEq, false_or] at h1 h1'
      exact ih (by simpa [methodNames] using hn) h1 h1'
    | method a =>
      have hn' : a.ident.name ∉ methodNames es ∧ (methodNames es).Nodup := by simpa [methodNames] using hn
      simp only [List.mem_cons, IfaceElement.method.injEq] at h1 h1'
      rcases h1 with h1 | h1 <;> rcases h1' with h1' | h1'
      · rw [h1, h1']
      · subst h1; exact (hn'.1 (by rw [h2, ← h2']; exact mem_methodNames h1')).elim
      · subst h1'; exact (hn'.1 (by rw [h2', ← h2]; exact mem_methodNames h1)).elim
      · exact ih hn'.2 h1 h1'

end Serum.Interfaces
