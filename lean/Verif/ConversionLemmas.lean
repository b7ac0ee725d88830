import Verif.Spec.ConversionSpec

/-! # Every conversion is checked, and nothing else (lemmas, one per kind of node) -/

namespace Serum
namespace Conv
open ConvSpec

variable {env : Env} {info : Info} {calls : CallKind} {w : Option FuncType}

/-- The steps are exactly the checks for the conversions at the node. -/
def Exact (env : Env) (info : Info) (calls : CallKind) (w : Option FuncType) (n : Node) (steps : List Step) : Prop :=
  ∀ st, st ∈ steps ↔ ∃ ms T S a, st = .check ⟨ms, T, S, a⟩ ∧ IsErrorInterface env T ms ∧ Converts env info calls w n T S a

theorem importFact_iff {T : GoType} {ms : List (GoString × CodeSet)} :
    Interfaces.importFact env T = some ms ↔ IsErrorInterface env T ms := by
  unfold Interfaces.importFact IsErrorInterface
  cases getNamedType T <;> simp

theorem importFact_none {T : GoType} : Interfaces.importFact env T = none ↔ NoErrorInterface env T := by
  unfold NoErrorInterface
  constructor
  · intro h ms hm
    rw [← importFact_iff, h] at hm; cases hm
  · intro h
    cases hf : Interfaces.importFact env T with
    | none => rfl
    | some ms => exact absurd (importFact_iff.1 hf) (h ms)

theorem mem_withFact {T : GoType} {k : List (GoString × CodeSet) → List Step} {st : Step} :
    st ∈ withFact env T k ↔ ∃ ms, IsErrorInterface env T ms ∧ st ∈ k ms := by
  unfold withFact
  cases h : Interfaces.importFact env T with
  | none =>
    simp only [List.not_mem_nil, false_iff]
    rintro ⟨ms, hm, -⟩
    exact importFact_none.1 h ms hm
  | some ms =>
    constructor
    · exact fun h' => ⟨ms, importFact_iff.1 h, h'⟩
    · rintro ⟨ms', hm, h'⟩
      rw [← importFact_iff, h] at hm
      cases hm; exact h'

theorem withFact_none {T : GoType} (h : NoErrorInterface env T) (k : List (GoString × CodeSet) → List Step) :
    withFact env T k = [] := by
  unfold withFact; rw [importFact_none.2 h]

theorem mem_eachIdx {α : Type} {k : Nat → α → List Step} {st : Step} : ∀ (l : List α) (i0 : Nat),
    st ∈ eachIdx k i0 l ↔ ∃ i x, l[i]? = some x ∧ st ∈ k (i0 + i) x
  | [], i0 => by simp [eachIdx]
  | x :: l, i0 => by
    simp only [eachIdx, List.mem_append, mem_eachIdx l (i0 + 1)]
    constructor
    · rintro (h | ⟨i, y, hy, h⟩)
      · exact ⟨0, x, rfl, h⟩
      · exact ⟨i + 1, y, by simpa using hy, by rwa [show i0 + (i + 1) = i0 + 1 + i by omega]⟩
    · rintro ⟨i, y, hy, h⟩
      cases i with
      | zero => simp at hy; subst hy; exact .inl h
      | succ i => exact .inr ⟨i, y, by simpa using hy, by rwa [show i0 + 1 + i = i0 + (i + 1) by omega]⟩

theorem checkAt_eq {ms : List (GoString × CodeSet)} {T : GoType} {es : List Node} {i : Nat} {e : Node}
    (h : es[i]? = some e) : checkAt env ms T es i = .check ⟨ms, T, env.typeOf e.id, e.id⟩ := by
  simp [checkAt, h, checkExpr]

theorem inAssign_exact {id : NodeId} {lhs rhs : List Node} (hw : WellTyped env info calls w (.assign id lhs rhs)) :
    Exact env info calls w (.assign id lhs rhs) (inAssign env info lhs rhs) := by
  intro st
  unfold inAssign
  simp only [mem_eachIdx, mem_withFact, Nat.zero_add]
  constructor
  · rintro ⟨i, l, hl, ms, hms, h⟩
    split at h
    · rename_i hlen
      obtain ⟨hi, -⟩ := List.getElem?_eq_some_iff.1 hl
      have hr : rhs[i]? = some rhs[i] := List.getElem?_eq_getElem (by omega)
      rw [checkAt_eq hr, List.mem_singleton] at h
      exact ⟨_, _, _, _, h, hms, .assign hlen hl hr⟩
    · rename_i hlen
      rcases hw with hw | ⟨r, t, rfl, h1, h2, h3⟩
      · exact absurd hw hlen
      · simp only [h2] at h
        obtain ⟨hi, -⟩ := List.getElem?_eq_some_iff.1 hl
        have ht : (info.tuple t)[i]? = some (info.tuple t)[i] := List.getElem?_eq_getElem (by omega)
        simp only [ht, List.mem_singleton] at h
        exact ⟨_, _, _, _, h, hms, .assignMany h1 h2 hl ht⟩
  · rintro ⟨ms, T, S, a, rfl, hms, h⟩
    cases h with
    | @assign _ _ _ i l r hlen hl hr =>
      exact ⟨i, l, hl, ms, hms, by rw [if_pos hlen, checkAt_eq hr]; simp⟩
    | @assignMany _ _ r t i l s h1 h2 hl ht =>
      exact ⟨i, l, hl, ms, hms, by rw [if_neg (by simpa using h1)]; simp [h2, ht]⟩

theorem inValueSpec_exact {id : NodeId} {names : List Ident} {type : Option NodeId} {values : List Node}
    (hw : WellTyped env info calls w (.valueSpec id names type values)) :
    Exact env info calls w (.valueSpec id names type values) (inValueSpec env info names type values) := by
  intro st
  unfold inValueSpec
  split
  · simp only [List.not_mem_nil, false_iff]
    rintro ⟨ms, T, S, a, rfl, hms, h⟩
    cases h with
    | var _ hm => cases hm
  · simp only [List.not_mem_nil, false_iff]
    rintro ⟨ms, T, S, a, rfl, hms, h⟩
    cases h
  · rename_i v vs type
    simp only [mem_withFact]
    constructor
    · rintro ⟨ms, hms, h⟩
      split at h
      · rename_i hlen
        obtain ⟨e, he, rfl⟩ := List.mem_map.1 h
        exact ⟨_, _, _, _, rfl, hms, .var hlen he⟩
      · rename_i hlen
        rcases hw with hw | hw | ⟨r, t, hv, h1, h2, h3⟩
        · cases hw
        · exact absurd hw hlen
        · cases hv
          simp only [h2, mem_eachIdx, Nat.zero_add] at h
          obtain ⟨i, x, hx, h⟩ := h
          obtain ⟨hi, -⟩ := List.getElem?_eq_some_iff.1 hx
          have ht : (info.tuple t)[i]? = some (info.tuple t)[i] := List.getElem?_eq_getElem (by omega)
          simp only [ht, List.mem_singleton] at h
          exact ⟨_, _, _, _, h, hms, .varMany h1 h2 hi ht⟩
    · rintro ⟨ms, T, S, a, rfl, hms, h⟩
      cases h with
      | @var _ _ _ _ e hlen he => exact ⟨ms, hms, by rw [if_pos hlen]; exact List.mem_map.2 ⟨e, he, rfl⟩⟩
      | @varMany _ _ _ _ t i s h1 h2 hi ht =>
        refine ⟨ms, hms, ?_⟩
        rw [if_neg (by simpa using h1)]
        simp only [h2, mem_eachIdx, Nat.zero_add]
        exact ⟨i, names[i], List.getElem?_eq_getElem hi, by simp [ht]⟩

theorem inTypeAssert_exact {id : NodeId} {x : Node} {type : Option NodeId}
    (hw : WellTyped env info calls w (.typeAssert id x type)) (hs : Supported env info calls w (.typeAssert id x type)) :
    Exact env info calls w (.typeAssert id x type) (inTypeAssert env info x type) := by
  intro st
  unfold inTypeAssert
  cases type with
  | none =>
    simp only [List.not_mem_nil, false_iff]
    rintro ⟨ms, T, S, a, rfl, hms, h⟩
    cases h
  | some type =>
    simp only [WellTyped, Supported] at hw hs
    simp only [mem_withFact]
    have key : ∀ ms, IsErrorInterface env (env.typeOf type) ms → ∃ n,
        getUnderlyingType info (env.typeOf type) = .interface n ∧ under info (env.typeOf type) = .interface n := by
      rintro ms ⟨o, ho, hf⟩
      cases ht : env.typeOf type with
      | named o' =>
        obtain ⟨n, hn⟩ := hw o' ht ms (by rw [ht] at ho; simp [getNamedType] at ho; rwa [ho])
        exact ⟨n, by simp [getUnderlyingType, getNamedType, hn], by simp [under, hn]⟩
      | pointer t => exact absurd ⟨o, by rwa [ht] at ho, hf⟩ (hs t ht ms)
      | _ => rw [ht] at ho; simp [getNamedType] at ho
    constructor
    · rintro ⟨ms, hms, h⟩
      obtain ⟨n, h1, h2⟩ := key ms hms
      simp only [h1] at h
      split at h
      · rename_i hi
        exact ⟨_, _, _, _, List.mem_singleton.1 h, hms, .assertion h2 hi⟩
      · cases h
    · rintro ⟨ms, T, S, a, rfl, hms, h⟩
      cases h with
      | @assertion _ _ _ n h2 hi =>
        obtain ⟨n', h1, h2'⟩ := key ms hms
        rw [h2] at h2'; cases h2'
        exact ⟨ms, hms, by simp [h1, hi]⟩

theorem inTypeSwitch_exact {id : NodeId} {init : List Node} {assign : Node} {cases : List Node}
    (hw : WellTyped env info calls w (.typeSwitch id init assign cases))
    (hs : Supported env info calls w (.typeSwitch id init assign cases)) :
    Exact env info calls w (.typeSwitch id init assign cases) (inTypeSwitch env info assign cases) := by
  intro st
  simp only [WellTyped, Supported] at hw hs
  have key : ∀ t ms, (∀ q, t = .pointer q → NoErrorInterface env (.pointer q)) → IsErrorInterface env t ms →
      getUnderlyingType info t = under info t := by
    rintro t ms hp ⟨o, ho, hf⟩
    cases t with
    | named o' => rfl
    | pointer t => exact absurd ⟨o, ho, hf⟩ (hp t rfl ms)
    | _ => simp [getNamedType] at ho
  unfold inTypeSwitch
  split
  · rename_i aid lhs r
    obtain ⟨tid, x, ty, hr⟩ := hw.1 _ _ _ rfl
    cases hr
    simp only [List.mem_flatMap]
    constructor
    · rintro ⟨c, hc, h⟩
      obtain ⟨cid, types, body, rfl⟩ := hw.2 c hc
      simp only [inCase, List.mem_flatMap, mem_withFact] at h
      obtain ⟨e, he, ms, hms, h⟩ := h
      rw [key _ ms (hs cid types body hc e he) hms] at h
      split at h
      · rename_i n hn
        split at h
        · rename_i hi
          exact ⟨_, _, _, _, List.mem_singleton.1 h, hms, .typeCase hc he hn hi⟩
        · cases h
      · cases h
    · rintro ⟨ms, T, S, a, rfl, hms, h⟩
      cases h with
      | @typeCase _ _ _ _ _ _ cid body x e _ types n hc he hn hi =>
        refine ⟨_, hc, ?_⟩
        simp only [inCase, List.mem_flatMap, mem_withFact]
        refine ⟨e, he, ms, hms, ?_⟩
        rw [key _ ms (hs cid types body hc e he) hms, hn]
        simp [hi]
  · rename_i hne
    simp only [List.not_mem_nil, false_iff]
    rintro ⟨ms, T, S, a, rfl, hms, h⟩
    cases h
    exact hne _ _ _ rfl

theorem inIndex_exact {id : NodeId} {x idx : Node} (hw : WellTyped env info calls w (.index id x idx)) :
    Exact env info calls w (.index id x idx) (inIndex env info x idx) := by
  intro st
  simp only [WellTyped] at hw
  have key : ∀ k e, getUnderlyingType info (env.typeOf x.id) = .map k e ↔ under info (env.typeOf x.id) = .map k e := by
    intro k e
    cases ht : env.typeOf x.id with
    | pointer t =>
      simp only [under, reduceCtorEq, iff_false]
      unfold getUnderlyingType
      split
      · simp
      · rename_i o ho
        exact hw t ht o (by simpa [getNamedType] using ho) k e
    | _ => simp [getUnderlyingType, getNamedType, under]
  unfold inIndex
  constructor
  · intro h
    split at h
    · rename_i k e hk
      simp only [mem_withFact, List.mem_singleton] at h
      obtain ⟨ms, hms, rfl⟩ := h
      exact ⟨_, _, _, _, rfl, hms, .mapIndex ((key k e).1 hk)⟩
    · cases h
  · rintro ⟨ms, T, S, a, rfl, hms, h⟩
    cases h with
    | @mapIndex _ _ _ k e hk =>
      rw [(key _ e).2 hk]
      simp only [mem_withFact]
      exact ⟨ms, hms, by simp [checkExpr]⟩

theorem inSend_exact {id : NodeId} {ch value : Node} (hw : WellTyped env info calls w (.send id ch value)) :
    Exact env info calls w (.send id ch value) (inSend env info ch value) := by
  intro st
  obtain ⟨hp, t, ht⟩ := hw
  have hu : getUnderlyingType info (env.typeOf ch.id) = .chan t := by
    rw [← ht]
    cases h : env.typeOf ch.id with
    | pointer q => exact absurd h (hp q)
    | _ => simp [getUnderlyingType, getNamedType, under]
  unfold inSend
  simp only [hu, mem_withFact, List.mem_singleton]
  constructor
  · rintro ⟨ms, hms, rfl⟩
    exact ⟨_, _, _, _, rfl, hms, .send ht⟩
  · rintro ⟨ms, T, S, a, rfl, hms, h⟩
    cases h with
    | send h => rw [ht] at h; cases h; exact ⟨ms, hms, rfl⟩

theorem mem_resultFields {results : List Node} {st : Step} : ∀ (fields : List Field) (p : Nat),
    st ∈ resultFields env results p fields ↔ ∃ i t ms, (resultTypes fields)[i]? = some t ∧
      IsErrorInterface env (env.typeOf t) ms ∧ st = checkAt env ms (env.typeOf t) results (p + i)
  | [], p => by simp [resultFields, resultTypes]
  | f :: fs, p => by
    have hwd : fieldWidth f = max 1 f.names.length := by
      unfold fieldWidth; split <;> omega
    have hrt : resultTypes (f :: fs) = List.replicate (fieldWidth f) f.typ ++ resultTypes fs := by
      rw [hwd]; simp [resultTypes]
    rw [hrt]
    simp only [resultFields, List.mem_append, mem_withFact, List.mem_map, List.mem_range'_1,
      mem_resultFields fs, List.getElem?_append, List.length_replicate, List.getElem?_replicate]
    constructor
    · rintro (⟨ms, hms, i, ⟨h1, h2⟩, rfl⟩ | ⟨i, t, ms, ht, hms, rfl⟩)
      · refine ⟨i - p, f.typ, ms, ?_, hms, ?_⟩
        · rw [if_pos (by omega), if_pos (by omega)]
        · rw [show p + (i - p) = i by omega]
      · refine ⟨fieldWidth f + i, t, ms, ?_, hms, ?_⟩
        · rw [if_neg (by omega)]; rwa [show fieldWidth f + i - fieldWidth f = i by omega]
        · rw [show p + (fieldWidth f + i) = p + fieldWidth f + i by omega]
    · rintro ⟨i, t, ms, ht, hms, rfl⟩
      split at ht
      · rename_i hi
        simp only [Option.some.injEq] at ht
        subst ht
        exact .inl ⟨ms, hms, p + i, ⟨by omega, by omega⟩, rfl⟩
      · rename_i hi
        refine .inr ⟨i - fieldWidth f, t, ms, ht, hms, ?_⟩
        rw [show p + fieldWidth f + (i - fieldWidth f) = p + i by omega]

theorem inReturn_exact {id : NodeId} {results : List Node} (hw : WellTyped env info calls w (.ret id results))
    (hs : Supported env info calls w (.ret id results)) :
    Exact env info calls w (.ret id results) (atNode env info w (.ret id results)) := by
  intro st
  obtain ⟨ft, rfl, hw⟩ := hw
  simp only [atNode]
  unfold inReturn
  by_cases h0 : results = []
  · subst h0
    simp only [List.length_nil, if_true, List.not_mem_nil, false_iff]
    rintro ⟨ms, T, S, a, rfl, hms, h⟩
    cases h
    rename_i hn
    simp at hn
  · rw [if_neg (by simpa using h0)]
    obtain ⟨fields, hf, hlen⟩ := hw h0
    simp only [hf, mem_resultFields, Nat.zero_add]
    have hs := hs ft fields rfl hf h0
    constructor
    · rintro ⟨i, t, ms, ht, hms, rfl⟩
      rcases hs with hs | hs
      · exact absurd hms (hs t (List.mem_of_getElem? ht) ms)
      · obtain ⟨hi, -⟩ := List.getElem?_eq_some_iff.1 ht
        have hr : results[i]? = some results[i] := List.getElem?_eq_getElem (by omega)
        rw [checkAt_eq hr]
        exact ⟨_, _, _, _, rfl, hms, .result rfl hf hs ht hr⟩
    · rintro ⟨ms, T, S, a, rfl, hms, h⟩
      cases h with
      | @result _ _ ft' fields' i t e h1 h2 h3 h4 h5 =>
        cases h1
        rw [hf] at h2; cases h2
        exact ⟨i, t, ms, h4, hms, (checkAt_eq h5).symm⟩
      | @resultMany _ e ft' fields' t i ty s h1 h2 h3 h4 h5 h6 =>
        cases h1
        rw [hf] at h2; cases h2
        rcases hs with hs | hs
        · exact absurd hms (hs ty (List.mem_of_getElem? h5) ms)
        · exact absurd hs.symm h3

theorem inRange_exact {id : NodeId} {key value : Option Node} {x : Node} {body : List Node}
    (hw : WellTyped env info calls w (.range id key value x body))
    (hs : Supported env info calls w (.range id key value x body)) :
    Exact env info calls w (.range id key value x body) (atNode env info w (.range id key value x body)) := by
  intro st
  obtain ⟨hk, hv⟩ := hw
  simp only [Supported] at hs
  simp only [atNode, List.mem_append]
  have hkey : st ∈ inRangeKey env info key x ↔ ∃ k ms t, key = some k ∧ IsErrorInterface env (env.typeOf k.id) ms ∧
      ((∃ e, under info (env.typeOf x.id) = .map t e) ∨ under info (env.typeOf x.id) = .chan t) ∧
      st = .check ⟨ms, env.typeOf k.id, t, x.id⟩ := by
    cases key with
    | none => simp [inRangeKey]
    | some k =>
      simp only [inRangeKey, mem_withFact]
      constructor
      · rintro ⟨ms, hms, h⟩
        rcases hk k rfl with hn | ⟨hp, hmc⟩
        · exact absurd hms (hn ms)
        · have hu : getUnderlyingType info (env.typeOf x.id) = under info (env.typeOf x.id) := by
            cases h : env.typeOf x.id with
            | pointer q => exact absurd h (hp q)
            | _ => simp [getUnderlyingType, getNamedType, under]
          rw [hu] at h
          rcases hmc with ⟨t, e, hm⟩ | ⟨t, hm⟩
          · rw [hm] at h
            exact ⟨k, ms, t, rfl, hms, .inl ⟨e, hm⟩, List.mem_singleton.1 h⟩
          · rw [hm] at h
            exact ⟨k, ms, t, rfl, hms, .inr hm, List.mem_singleton.1 h⟩
      · rintro ⟨k', ms, t, hk', hms, hmc, rfl⟩
        cases hk'
        refine ⟨ms, hms, ?_⟩
        rcases hk k rfl with hn | ⟨hp, -⟩
        · exact absurd hms (hn ms)
        · have hu : getUnderlyingType info (env.typeOf x.id) = under info (env.typeOf x.id) := by
            cases h : env.typeOf x.id with
            | pointer q => exact absurd h (hp q)
            | _ => simp [getUnderlyingType, getNamedType, under]
          rw [hu]
          rcases hmc with ⟨e, hm⟩ | hm <;> simp [hm]
  have hval : st ∈ inRangeValue env info key value x ↔ ∃ v ms e, value = some v ∧
      IsErrorInterface env (env.typeOf v.id) ms ∧ RangeElem info (env.typeOf x.id) e ∧
      st = .check ⟨ms, env.typeOf v.id, e, x.id⟩ := by
    cases value with
    | none => cases key <;> simp [inRangeValue]
    | some v =>
      obtain ⟨⟨k, rfl⟩, hv'⟩ := hv v rfl
      simp only [inRangeValue, mem_withFact]
      have key : ∀ ms, IsErrorInterface env (env.typeOf v.id) ms → ∀ e, RangeElem info (env.typeOf x.id) e →
          elemType (getUnderlyingType info (env.typeOf x.id)) = some e := by
        intro ms hms e he
        rcases hs v rfl with hn | hs
        · exact absurd hms (hn ms)
        · cases ht : env.typeOf x.id with
          | pointer q =>
            rw [ht] at he hs
            rcases he with h | h | ⟨k, h⟩ | ⟨q', h, h2⟩
            · simp [under] at h
            · simp [under] at h
            · simp [under] at h
            · simp only [under, GoType.pointer.injEq] at h
              subst h
              rcases hs q rfl with ⟨e', rfl⟩ | ⟨o, ho⟩
              · simp only [under, GoType.array.injEq] at h2
                subst h2
                simp [getUnderlyingType, getNamedType, elemType]
              · simp only [GoType.pointer.injEq] at ho
                subst ho
                simp only [under] at h2
                simp [getUnderlyingType, getNamedType, h2, elemType]
          | named o =>
            rw [ht] at he hs
            rcases he with h | h | ⟨k, h⟩ | ⟨q', h, h2⟩
            · simp only [under] at h; simp [getUnderlyingType, getNamedType, h, elemType]
            · simp only [under] at h; simp [getUnderlyingType, getNamedType, h, elemType]
            · simp only [under] at h; simp [getUnderlyingType, getNamedType, h, elemType]
            · rcases hs q' h with ⟨e', rfl⟩ | ⟨o', ho⟩
              · simp only [under, GoType.array.injEq] at h2
                subst h2
                simp only [under] at h
                simp [getUnderlyingType, getNamedType, h, elemType]
              · cases ho
          | slice t => rw [ht] at he; simp [RangeElem, under] at he; subst he; simp [getUnderlyingType, getNamedType, elemType]
          | array t => rw [ht] at he; simp [RangeElem, under] at he; subst he; simp [getUnderlyingType, getNamedType, elemType]
          | map k t => rw [ht] at he; simp [RangeElem, under] at he; subst he; simp [getUnderlyingType, getNamedType, elemType]
          | _ => rw [ht] at he; simp [RangeElem, under] at he
      constructor
      · rintro ⟨ms, hms, h⟩
        rcases hv' with hn | ⟨e, he⟩
        · exact absurd hms (hn ms)
        · simp only [key ms hms e he, List.mem_singleton] at h
          exact ⟨v, ms, e, rfl, hms, he, h⟩
      · rintro ⟨v', ms, e, hv', hms, he, rfl⟩
        cases hv'
        refine ⟨ms, hms, ?_⟩
        simp [key ms hms e he]
  rw [hkey, hval]
  constructor
  · rintro (⟨k, ms, t, rfl, hms, ht, rfl⟩ | ⟨v, ms, e, rfl, hms, he, rfl⟩)
    · exact ⟨_, _, _, _, rfl, hms, .rangeKey ht⟩
    · exact ⟨_, _, _, _, rfl, hms, .rangeValue he⟩
  · rintro ⟨ms, T, S, a, rfl, hms, h⟩
    cases h with
    | rangeKey ht => exact .inl ⟨_, ms, _, rfl, hms, ht, rfl⟩
    | rangeValue he => exact .inr ⟨_, ms, _, rfl, hms, he, rfl⟩

theorem keyedValue_kvs {ms : List (GoString × CodeSet)} {name : GoString} {type : GoType} :
    ∀ (kvs : List (NodeId × Ident × Node)) (_ : (kvs.map fun p => p.2.1.name).Nodup) (st : Step),
    st ∈ keyedValue env ms name type (kvs.map fun p => .keyValue p.1 (.ident p.2.1) p.2.2) ↔
      ∃ p ∈ kvs, p.2.1.name = name ∧ st = .check ⟨ms, type, env.typeOf p.2.2.id, p.2.2.id⟩
  | [], _, st => by simp [keyedValue]
  | p :: kvs, hn, st => by
    simp only [List.map_cons, List.nodup_cons] at hn
    simp only [List.map_cons, keyedValue]
    split
    · rename_i he
      rw [List.mem_singleton]
      simp only [checkExpr, List.mem_cons]
      constructor
      · rintro rfl; exact ⟨p, .inl rfl, he, rfl⟩
      · rintro ⟨q, rfl | hq, hqn, rfl⟩
        · rfl
        · exact absurd (List.mem_map.2 ⟨q, hq, hqn.trans he.symm⟩) hn.1
    · rename_i he
      rw [keyedValue_kvs kvs hn.2 st]
      simp only [List.mem_cons]
      constructor
      · rintro ⟨q, hq, h⟩; exact ⟨q, .inr hq, h⟩
      · rintro ⟨q, rfl | hq, h1, h2⟩
        · exact absurd h1 he
        · exact ⟨q, hq, h1, h2⟩

theorem elementValue_iff {e v : Node} : ElementValue e v ↔ v = elementValue e := by
  constructor
  · rintro (⟨id, k, v⟩ | ⟨e, h⟩)
    · rfl
    · cases e <;> first | rfl | exact absurd rfl (h _ _ _)
  · rintro rfl
    cases e with
    | keyValue id k v => exact .keyed id k v
    | _ => exact .plain _ (by intros; simp)

theorem literalType_eq {id : NodeId} (h : ∀ t, env.typeOf id = .pointer t → ∃ o, t = .named o) :
    getUnderlyingType info (env.typeOf id) = literalType info (env.typeOf id) := by
  cases ht : env.typeOf id with
  | pointer t => obtain ⟨o, rfl⟩ := h t ht; rfl
  | _ => simp [getUnderlyingType, getNamedType, literalType, under]

theorem inComposite_exact {id : NodeId} {elts : List Node} (hw : WellTyped env info calls w (.compositeLit id elts))
    (hs : Supported env info calls w (.compositeLit id elts)) :
    Exact env info calls w (.compositeLit id elts) (inComposite env info id elts) := by
  intro st
  simp only [WellTyped, Supported] at hw hs
  unfold inComposite
  by_cases h0 : elts = []
  · subst h0
    simp only [List.length_nil, if_true, List.not_mem_nil, false_iff]
    rintro ⟨ms, T, S, a, rfl, hms, h⟩
    cases h with
    | keyedField _ _ h => cases h
    | field _ _ h => simp at h
    | element _ h => cases h
    | mapKey _ h => cases h
  · rw [if_neg (by simpa using h0), literalType_eq hs]
    have hvals : ∀ t, st ∈ inValues env elts t ↔ ∃ ms e, IsErrorInterface env t ms ∧ e ∈ elts ∧
        st = .check ⟨ms, t, env.typeOf (elementValue e).id, (elementValue e).id⟩ := by
      intro t
      simp only [inValues, mem_withFact, List.mem_map, checkExpr]
      constructor
      · rintro ⟨ms, hms, e, he, rfl⟩; exact ⟨ms, e, hms, he, rfl⟩
      · rintro ⟨ms, e, hms, he, rfl⟩; exact ⟨ms, hms, e, he, rfl⟩
    cases hl : literalType info (env.typeOf id) with
    | struct n =>
      simp only []
      unfold inStructLit
      obtain ⟨first, rest, rfl⟩ : ∃ a l, elts = a :: l := by cases elts with
        | nil => exact absurd rfl h0
        | cons a l => exact ⟨a, l, rfl⟩
      simp only [mem_eachIdx, mem_withFact, Nat.zero_add]
      rcases hw.1 n hl with ⟨kvs, hkv, hnd⟩ | ⟨hlen, hpl⟩
      · have hfirst : ∃ kid k v, first = .keyValue kid k v := by
          cases kvs with
          | nil => cases hkv
          | cons p kvs => simp only [List.map_cons, List.cons.injEq] at hkv; exact ⟨_, _, _, hkv.1⟩
        obtain ⟨kid, k, v, rfl⟩ := hfirst
        simp only [isKeyed, if_true]
        rw [hkv]
        constructor
        · rintro ⟨i, ⟨name, type⟩, hf, ms, hms, h⟩
          rw [keyedValue_kvs kvs hnd] at h
          obtain ⟨p, hp, hpn, rfl⟩ := h
          exact ⟨_, _, _, _, rfl, hms, .keyedField hl (List.mem_of_getElem? hf) (List.mem_map.2 ⟨p, hp, rfl⟩) hpn⟩
        · rintro ⟨ms, T, S, a, rfl, hms, h⟩
          cases h with
          | @keyedField _ _ n' name _ kid k v h1 h2 h3 h4 =>
            rw [hl] at h1; cases h1
            obtain ⟨i, hi⟩ := List.getElem?_of_mem h2
            refine ⟨i, _, hi, ms, hms, ?_⟩
            rw [keyedValue_kvs kvs hnd]
            obtain ⟨p, hp, he⟩ := List.mem_map.1 h3
            simp only [Node.keyValue.injEq, Node.ident.injEq] at he
            obtain ⟨-, rfl, rfl⟩ := he
            exact ⟨p, hp, h4, rfl⟩
          | @field _ _ n' name _ i e h1 h2 h3 h4 =>
            have := List.mem_of_getElem? h3
            obtain ⟨p, hp, he⟩ := List.mem_map.1 this
            exact absurd he.symm (h4 _ _ _)
          | element h1 => rw [hl] at h1; simp at h1
          | mapKey h1 => rw [hl] at h1; cases h1
      · have hfirst : isKeyed first = false := by
          have := hpl first (by simp)
          cases first with
          | keyValue => exact absurd rfl (this _ _ _)
          | _ => rfl
        simp only [hfirst, Bool.false_eq_true, if_false]
        constructor
        · rintro ⟨i, ⟨name, type⟩, hf, ms, hms, h⟩
          obtain ⟨hi, -⟩ := List.getElem?_eq_some_iff.1 hf
          have hr : (first :: rest)[i]? = some (first :: rest)[i] := List.getElem?_eq_getElem (by omega)
          rw [checkAt_eq hr, List.mem_singleton] at h
          exact ⟨_, _, _, _, h, hms, .field hl hf hr (hpl _ (List.getElem_mem _))⟩
        · rintro ⟨ms, T, S, a, rfl, hms, h⟩
          cases h with
          | @keyedField _ _ n' name _ kid k v h1 h2 h3 h4 => exact absurd rfl (hpl _ h3 _ _ _)
          | @field _ _ n' name _ i e h1 h2 h3 h4 =>
            rw [hl] at h1; cases h1
            exact ⟨i, _, h2, ms, hms, by rw [checkAt_eq h3]; simp⟩
          | element h1 => rw [hl] at h1; simp at h1
          | mapKey h1 => rw [hl] at h1; cases h1
    | slice t =>
      simp only [hvals]
      constructor
      · rintro ⟨ms, e, hms, he, rfl⟩
        exact ⟨_, _, _, _, rfl, hms, .element (.inl hl) he (elementValue_iff.2 rfl)⟩
      · rintro ⟨ms, T, S, a, rfl, hms, h⟩
        cases h with
        | keyedField h1 => rw [hl] at h1; cases h1
        | field h1 => rw [hl] at h1; cases h1
        | @element _ _ t' e v h1 he hv =>
          rw [hl] at h1; simp at h1; subst h1
          rw [elementValue_iff.1 hv]; exact ⟨ms, e, hms, he, rfl⟩
        | mapKey h1 => rw [hl] at h1; cases h1
    | array t =>
      simp only [hvals]
      constructor
      · rintro ⟨ms, e, hms, he, rfl⟩
        exact ⟨_, _, _, _, rfl, hms, .element (.inr (.inl hl)) he (elementValue_iff.2 rfl)⟩
      · rintro ⟨ms, T, S, a, rfl, hms, h⟩
        cases h with
        | keyedField h1 => rw [hl] at h1; cases h1
        | field h1 => rw [hl] at h1; cases h1
        | @element _ _ t' e v h1 he hv =>
          rw [hl] at h1; simp at h1; subst h1
          rw [elementValue_iff.1 hv]; exact ⟨ms, e, hms, he, rfl⟩
        | mapKey h1 => rw [hl] at h1; cases h1
    | map k t =>
      simp only [List.mem_append, hvals, inKeys, mem_withFact, List.mem_map]
      constructor
      · rintro (⟨ms, e, hms, he, rfl⟩ | ⟨ms, hms, e, he, h⟩)
        · exact ⟨_, _, _, _, rfl, hms, .element (.inr (.inr ⟨k, hl⟩)) he (elementValue_iff.2 rfl)⟩
        · obtain ⟨kid, k', v, rfl⟩ := hw.2 k t hl e he
          exact ⟨_, _, _, _, h.symm, hms, .mapKey hl he⟩
      · rintro ⟨ms, T, S, a, rfl, hms, h⟩
        cases h with
        | keyedField h1 => rw [hl] at h1; cases h1
        | field h1 => rw [hl] at h1; cases h1
        | @element _ _ t' e v h1 he hv =>
          rw [hl] at h1; simp at h1; subst h1
          rw [elementValue_iff.1 hv]; exact .inl ⟨ms, e, hms, he, rfl⟩
        | mapKey h1 he =>
          rw [hl] at h1; cases h1
          exact .inr ⟨ms, hms, _, he, rfl⟩
    | _ =>
      simp only [List.not_mem_nil, false_iff]
      rintro ⟨ms, T, S, a, rfl, hms, h⟩
      cases h with
      | keyedField h1 => rw [hl] at h1; cases h1
      | field h1 => rw [hl] at h1; cases h1
      | element h1 => rw [hl] at h1; simp at h1
      | mapKey h1 => rw [hl] at h1; cases h1

theorem under_signature {t : GoType} {s : Nat} (h : getNamedType t = none) : under info t = .signature s ↔ t = .signature s := by
  cases t with
  | named o => simp [getNamedType] at h
  | _ => simp [under]

theorem inCall_other {fn : Node} {args : List Node} (h0 : args ≠ []) (h : ∀ s, env.typeOf fn.id ≠ .signature s) :
    inCall env info fn args = explicit env (env.typeOf fn.id) args := by
  unfold inCall
  rw [if_neg (by simpa using h0)]
  split
  · rename_i s hs; exact absurd hs (h s)
  · rfl

theorem inCall_signature {fn : Node} {args : List Node} (h0 : args ≠ []) {s : Nat} (h : env.typeOf fn.id = .signature s) :
    inCall env info fn args = inFunctionCall env info s args := by
  unfold inCall
  rw [if_neg (by simpa using h0), h]

theorem inCall_exact {id : NodeId} {fn : Node} {args : List Node} (hw : WellTyped env info calls w (.call id fn args))
    (hs : Supported env info calls w (.call id fn args)) :
    Exact env info calls w (.call id fn args) (inCall env info fn args) := by
  intro st
  simp only [WellTyped, Supported] at hw hs
  by_cases h0 : args = []
  · subst h0
    simp only [inCall, List.length_nil, if_true, List.not_mem_nil, false_iff]
    rintro ⟨ms, T, S, a, rfl, hms, h⟩
    cases h with
    | argument _ _ _ _ h => simp at h
    | variadicArgument _ _ _ _ _ _ h => simp at h
    | spreadArgument _ _ _ _ _ h => simp at h
  rcases hw with ⟨hc, a, rfl, hnt⟩ | ⟨hc, hn, hns⟩ | ⟨hc, s, hsig, hvar, hargs⟩
  · -- a conversion
    have hne := hs.1 hc
    rw [inCall_other h0 hne]
    simp only [explicit, mem_withFact, List.mem_singleton, checkExpr]
    constructor
    · rintro ⟨ms, hms, rfl⟩
      exact ⟨_, _, _, _, rfl, hms, .conversion hc⟩
    · rintro ⟨ms, T, S, a, rfl, hms, h⟩
      cases h with
      | conversion => exact ⟨ms, hms, rfl⟩
      | argument h1 => rw [hc] at h1; cases h1
      | variadicArgument h1 => rw [hc] at h1; cases h1
      | spreadArgument h1 => rw [hc] at h1; cases h1
      | forwardedArgument h1 => rw [hc] at h1; cases h1
      | forwardedVariadic h1 => rw [hc] at h1; cases h1
  · -- a predeclared function
    have hne : ∀ s, env.typeOf fn.id ≠ .signature s := fun s h => hns s ((under_signature hn).2 h)
    have hno : NoErrorInterface env (env.typeOf fn.id) := by rintro ms ⟨o, ho, -⟩; rw [hn] at ho; cases ho
    rw [inCall_other h0 hne, explicit, withFact_none hno]
    simp only [List.not_mem_nil, false_iff]
    rintro ⟨ms, T, S, a, rfl, hms, h⟩
    cases h with
    | conversion h1 => rw [hc] at h1; cases h1
    | argument _ h1 => exact hns _ h1
    | variadicArgument _ _ h1 => exact hns _ h1
    | spreadArgument _ _ h1 => exact hns _ h1
    | forwardedArgument _ h1 => exact hns _ h1
    | forwardedVariadic _ _ h1 => exact hns _ h1
  · -- a function call
    obtain ⟨hfn, hsup⟩ := hs.2 hc s hsig
    rw [inCall_signature h0 hfn]
    by_cases hno : NoParams env info s
    · have hnil : ¬ st ∈ inFunctionCall env info s args := by
        unfold inFunctionCall
        simp only [List.mem_append, mem_eachIdx, mem_withFact, not_or]
        refine ⟨?_, ?_⟩
        · rintro ⟨i, p, hp, ms, hms, -⟩
          exact (hno p (List.mem_of_getElem? hp)).1 ms hms
        · split
          · rename_i hv
            obtain ⟨p, hp, -⟩ := hvar hv
            rw [hp]
            have := hno p (List.mem_of_getLast? hp)
            split
            · rename_i h; cases h
            · rename_i e h
              cases h
              rw [withFact_none (this.2 e rfl)]; simp
            · simp
          · simp
      simp only [hnil, false_iff]
      rintro ⟨ms, T, S, a, rfl, hms, h⟩
      cases h with
      | conversion h1 => rw [hc] at h1; cases h1
      | argument _ h1 h2 => rw [hsig] at h1; cases h1; exact (hno _ (List.mem_of_getElem? h2)).1 ms hms
      | variadicArgument _ _ h1 _ h2 => rw [hsig] at h1; cases h1; exact (hno _ (List.mem_of_getLast? h2)).2 _ rfl ms hms
      | spreadArgument _ _ h1 _ h2 => rw [hsig] at h1; cases h1; exact (hno _ (List.mem_of_getLast? h2)).1 ms hms
      | forwardedArgument _ h1 h2 => rw [hsig] at h1; cases h1; exact (hno _ (List.mem_of_getElem? h2)).1 ms hms
      | forwardedVariadic _ _ h1 _ h2 => rw [hsig] at h1; cases h1; exact (hno _ (List.mem_of_getLast? h2)).2 _ rfl ms hms
    · rcases hsup with hsup | ⟨hspread, hmulti⟩
      · exact absurd hsup hno
      rcases hargs with ⟨-, hnt, hlen, hvlen⟩ | hargs | ⟨a, ha, hat⟩
      rotate_left
      · exact absurd hargs h0
      · exact absurd hat (hmulti a ha)
      unfold inFunctionCall
      simp only [List.mem_append, mem_eachIdx, mem_withFact, Nat.zero_add]
      constructor
      · rintro (⟨i, p, hp, ms, hms, h⟩ | h)
        · obtain ⟨hi, -⟩ := List.getElem?_eq_some_iff.1 hp
          have hlast : info.variadic s = true → i + 1 < (info.params s).length := by
            intro hv
            obtain ⟨q, hq, hqn⟩ := hvar hv
            rcases Nat.lt_or_ge (i + 1) (info.params s).length with h | h
            · exact h
            · have : i = (info.params s).length - 1 := by omega
              subst this
              rw [List.getLast?_eq_getElem?, hp] at hq
              cases hq
              exact absurd hms (hqn ms)
          have hia : i < args.length := by
            cases hv : info.variadic s with
            | false => rw [hlen hv]; exact hi
            | true => have := hlast hv; have := hvlen hv; omega
          have hr : args[i]? = some args[i] := List.getElem?_eq_getElem hia
          rw [if_neg (by rintro ⟨hv, he⟩; have := hlast hv; omega), checkAt_eq hr, List.mem_singleton] at h
          exact ⟨_, _, _, _, h, hms, .argument hc hsig hp hlast hr (hnt _ (List.getElem_mem _))⟩
        · split at h
          · rename_i hv
            obtain ⟨q, hq, hqn⟩ := hvar hv
            rw [hq] at h
            split at h
            · rename_i h'; cases h'
            · rename_i e h'
              cases h'
              simp only [mem_withFact, List.mem_map, checkExpr] at h
              obtain ⟨ms, hms, a, ha, rfl⟩ := h
              obtain ⟨i, hi⟩ := List.getElem?_of_mem ha
              rw [List.getElem?_drop] at hi
              have : (info.params s).length ≠ 0 := by
                intro hz
                rw [List.length_eq_zero_iff.1 hz] at hq; cases hq
              exact ⟨_, _, _, _, rfl, hms, .variadicArgument hc hspread hsig hv hq (by omega) hi
                (hnt _ (List.mem_of_getElem? hi))⟩
            · cases h
          · cases h
      · rintro ⟨ms, T, S, a, rfl, hms, h⟩
        cases h with
        | conversion h1 => rw [hc] at h1; cases h1
        | @argument _ _ _ s' i p a h1 h2 h3 h4 h5 h6 =>
          rw [hsig] at h2; cases h2
          refine .inl ⟨i, _, h3, ms, hms, ?_⟩
          rw [checkAt_eq h5]
          simp
        | @variadicArgument _ _ _ s' i e a h1 h2 h3 h4 h5 h6 h7 h8 =>
          rw [hsig] at h3; cases h3
          refine .inr ?_
          rw [if_pos h4, h5]
          simp only [mem_withFact, List.mem_map, checkExpr]
          refine ⟨ms, hms, a, ?_, rfl⟩
          refine List.mem_of_getElem? (i := i - ((info.params s).length - 1)) ?_
          rw [List.getElem?_drop, show (info.params s).length - 1 + (i - ((info.params s).length - 1)) = i by omega]
          exact h7
        | spreadArgument _ h1 => rw [hspread] at h1; cases h1
        | @forwardedArgument _ _ a s' t _ _ _ _ _ _ _ h1 => exact absurd ⟨t, h1⟩ (hmulti a rfl)
        | @forwardedVariadic _ _ a s' t _ _ _ _ _ _ _ _ _ h1 => exact absurd ⟨t, h1⟩ (hmulti a rfl)

/-- At every kind of node. -/
theorem atNode_exact {n : Node} (hw : WellTyped env info calls w n) (hs : Supported env info calls w n) :
    Exact env info calls w n (atNode env info w n) := by
  cases n with
  | assign => exact inAssign_exact hw
  | valueSpec => exact inValueSpec_exact hw
  | call => exact inCall_exact hw hs
  | typeAssert => exact inTypeAssert_exact hw hs
  | typeSwitch => exact inTypeSwitch_exact hw hs
  | index => exact inIndex_exact hw
  | compositeLit => exact inComposite_exact hw hs
  | ret => exact inReturn_exact hw hs
  | range => exact inRange_exact hw hs
  | send => exact inSend_exact hw
  | _ =>
    intro st
    simp only [atNode, List.not_mem_nil, false_iff]
    rintro ⟨ms, T, S, a, rfl, hms, h⟩
    cases h

end Conv
end Serum
