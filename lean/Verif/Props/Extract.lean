import Verif.ConstantLemmas
import Verif.Extract
import Verif.CodeValid

/-!
# C26 (call sites), C27, C28 — codes taken from expressions
-/

namespace Serum.Props.Extract
open Serum Serum.CodeFormat GoStr

/-! ## C27 — constants as error codes -/

theorem wellFormed_plain {s : GoString} (h : WellFormed s) : ∀ b ∈ s, 32 ≤ b ∧ b < 127 ∧ b ≠ 34 ∧ b ≠ 92 := by
  intro b hb
  have h2 : Letter b ∨ Digit b ∨ Dash b := by
    rcases h with ⟨f, m, z, rfl, hf, hm, hz⟩ | ⟨x, rfl, hx⟩
    · simp only [List.mem_cons, List.mem_append, List.not_mem_nil, or_false] at hb
      rcases hb with rfl | hb | rfl
      · exact .inl hf
      · exact hm b hb
      · exact hz.elim .inl fun h => .inr (.inl h)
    · simp at hb; subst hb; exact .inl hx
  simp only [Letter, Digit, Dash, UInt8.le_iff_toNat_le, UInt8.lt_iff_toNat_lt, ← UInt8.toNat_inj, ne_eq] at h2 ⊢
  simp at h2 ⊢
  omega

/-- **C27** at the level of constants: a string constant is taken as a code iff it is well-formed and at
most 70 bytes long, the empty string is taken as "no code", anything else is an error.

Partial: the property demands this for well-formed constants of every length; see
`long_code_refused` for the deviation. -/
theorem constant_code_partial (isPrint : Nat → Bool) (hp : PrintsAscii isPrint) (s : GoString) :
    (WellFormed s ∧ s.length ≤ 70 → getErrorCodeFromConstant isPrint (.str s) = some s) ∧
    getErrorCodeFromConstant isPrint (.str []) = some [] ∧
    (¬ (WellFormed s ∧ s.length ≤ 70) → s ≠ [] → getErrorCodeFromConstant isPrint (.str s) = none) ∧
    getErrorCodeFromConstant isPrint .other = none := by
  have hnl : isPrint 10 = false := by rw [hp 10 (by omega)]; rfl
  have hpre := unquote_constantString isPrint hnl
  refine ⟨?_, ?_, ?_, rfl⟩
  · rintro ⟨hw, hl⟩
    have hr := runes_quote_plain hp (wellFormed_plain hw)
    simp only [getErrorCodeFromConstant, hpre]
    rw [if_neg (by omega)]
    have hne : s ≠ [] := by
      rcases hw with ⟨f, m, z, rfl, -⟩ | ⟨x, rfl, -⟩ <;> simp
    simp [hne, (isErrorCodeValid_iff_wellFormed s).2 hw]
  · have : (runes (quote isPrint [])).length = 2 := by
      have := runes_quote_plain hp (s := []) (by simp)
      simpa using this
    simp only [getErrorCodeFromConstant, hpre]
    rw [if_neg (by omega)]; simp
  · intro hno hne
    simp only [getErrorCodeFromConstant, hpre]
    by_cases hr : (runes (quote isPrint s)).length > 72
    · rw [if_pos hr]
    · rw [if_neg hr]
      simp only [ne_eq, hne, not_false_eq_true, if_true]
      by_cases hw : WellFormed s
      · have := runes_quote_plain hp (wellFormed_plain hw)
        exact absurd ⟨hw, by omega⟩ hno
      · have : ¬ isErrorCodeValid s = true := fun h => hw ((isErrorCodeValid_iff_wellFormed s).1 h)
        simp [this]

/-- A code of 71 letters `a`: well-formed. -/
def longCode : GoString := List.replicate 71 97

/-- **C27 does not hold of the code** for long codes: this well-formed constant is refused, because
`constant.Value.String()` shortens it before it is unquoted. -/
theorem long_code_refused (isPrint : Nat → Bool) (hp : PrintsAscii isPrint) :
    WellFormed longCode ∧ getErrorCodeFromConstant isPrint (.str longCode) = none := by
  have hw : WellFormed longCode := by
    refine .inl ⟨97, List.replicate 69 97, 97, by decide, .inl (by decide), ?_, .inl (.inl (by decide))⟩
    intro b hb; rw [List.eq_of_mem_replicate hb]; exact .inl (.inl (by decide))
  refine ⟨hw, (constant_code_partial isPrint hp longCode).2.2.1 ?_ (by decide)⟩
  rintro ⟨-, h⟩
  exact absurd h (by decide)

/-- **C27.** Whatever constant is used, the code that is collected is exactly the constant's text and is
well-formed; there is no diagnostic iff a code is collected or the constant is empty, and otherwise the
constant is reported. -/
theorem constant_collected (env : Env) (hp : PrintsAscii env.isPrint) (f : FnId) (e : Node) (v : Const)
    (hv : env.value e.id = some v) :
    (∀ c, (extractErrorCodeFromStringExpression env f e).1 = some c → v = .str c ∧ WellFormed c) ∧
    ((extractErrorCodeFromStringExpression env f e).2 = [] ↔
      v = .str [] ∨ ∃ c, (extractErrorCodeFromStringExpression env f e).1 = some c) ∧
    ((extractErrorCodeFromStringExpression env f e).2 = [] ∨
      (extractErrorCodeFromStringExpression env f e).2 = [⟨e.id, .badConstant (constantError env.isPrint v)⟩] ∧
        (extractErrorCodeFromStringExpression env f e).1 = none) := by
  simp only [extractErrorCodeFromStringExpression, hv]
  cases v with
  | other => simp [getErrorCodeFromConstant]
  | str s =>
    obtain ⟨h1, h2, h3, -⟩ := constant_code_partial env.isPrint hp s
    by_cases hw : WellFormed s ∧ s.length ≤ 70
    · rw [h1 hw]
      have hne : s ≠ [] := by
        rcases hw.1 with ⟨f, m, z, rfl, -⟩ | ⟨x, rfl, -⟩ <;> simp
      simp only [ne_eq, hne, not_false_eq_true, if_true, Option.some.injEq]
      exact ⟨fun c h => ⟨by rw [h], h ▸ hw.1⟩, by simp, .inl trivial⟩
    · by_cases hne : s = []
      · subst hne; rw [h2]; simp
      · rw [h3 hw hne]; simp [hne]

/-- **C27**, the remaining direction up to the length limit: every well-formed constant of at most 70 bytes
is collected without a diagnostic. -/
theorem constant_accepted_partial (env : Env) (hp : PrintsAscii env.isPrint) (f : FnId) (e : Node) (s : GoString)
    (hv : env.value e.id = some (.str s)) (hw : WellFormed s) (hl : s.length ≤ 70) :
    extractErrorCodeFromStringExpression env f e = (some s, []) := by
  simp only [extractErrorCodeFromStringExpression, hv, (constant_code_partial env.isPrint hp s).1 ⟨hw, hl⟩]
  have hne : s ≠ [] := by
    rcases hw with ⟨f, m, z, rfl, -⟩ | ⟨x, rfl, -⟩ <;> simp
  simp [hne]

/-! ## C28 — keyed and positional error literals are read alike -/

/-- The elements of the keyed literal `T{n₁: v₁, …}` (with the node identities `ids` of keys and pairs). -/
def keyed (ids : Nat → NodeId × Ident) (names : List GoString) (values : List Node) : List Node :=
  (names.zip values).mapIdx fun i (n, v) => .keyValue (ids i).1 (.ident { (ids i).2 with name := n }) v

/-- `e` is an element `name: v` of a literal. -/
def IsPair (e : Node) (name : GoString) (v : Node) : Prop :=
  ∃ id i, e = .keyValue id (.ident i) v ∧ i.name = name

/-- All elements of a literal are of the form `field: value`, for different fields. -/
structure KeyedLit (elts : List Node) : Prop where
  pairs : ∀ e ∈ elts, ∃ name v, IsPair e name v
  distinct : elts.Pairwise fun a b => ∀ n v w, IsPair a n v → ¬ IsPair b n w

theorem findKeyed_spec (name : GoString) (elts : List Node) (h : ∀ e ∈ elts, ∃ n v, IsPair e n v) (hne : elts ≠ []) :
    (findKeyed name elts).1 = true ∧
    ((findKeyed name elts).2 = none ↔ ∀ e ∈ elts, ∀ v, ¬ IsPair e name v) ∧
    (∀ v, (findKeyed name elts).2 = some v → ∃ e ∈ elts, IsPair e name v) := by
  induction elts with
  | nil => exact absurd rfl hne
  | cons e es ih =>
    obtain ⟨n, v, id, i, rfl, hn⟩ := h e (by simp)
    by_cases hm : name = i.name
    · simp only [findKeyed, hm, if_true]
      refine ⟨trivial, ?_, ?_⟩
      · simp only [reduceCtorEq, false_iff]
        intro hx
        exact hx _ (by simp) v ⟨id, i, rfl, rfl⟩
      · intro w hw; simp only [Option.some.injEq] at hw; subst hw
        exact ⟨_, by simp, id, i, rfl, rfl⟩
    · have hno : ∀ w, ¬ IsPair (.keyValue id (.ident i) v) name w := by
        rintro w ⟨id', i', he, hx⟩
        injection he with _ he _
        injection he with he
        subst he; exact hm hx.symm
      simp only [findKeyed, hm, if_false]
      by_cases hes : es = []
      · subst hes
        simp only [findKeyed, List.mem_singleton, forall_eq, true_and, reduceCtorEq, false_implies, implies_true, and_true,
          true_iff]
        exact hno
      · obtain ⟨-, i2, i3⟩ := ih (fun e he => h e (List.mem_cons_of_mem _ he)) hes
        refine ⟨trivial, ?_, ?_⟩
        · rw [i2]
          constructor
          · intro hx e he
            rcases List.mem_cons.1 he with rfl | he
            · exact hno
            · exact hx e he
          · intro hx e he; exact hx e (List.mem_cons_of_mem _ he)
        · intro w hw
          obtain ⟨e, he, hp⟩ := i3 w hw
          exact ⟨e, List.mem_cons_of_mem _ he, hp⟩

/-- **C28.** A keyed literal gives the value written for the error code field, whatever the order of the
keys; if the field is absent it gives nothing, without diagnostic. -/
theorem keyed_literal (field : ErrorCodeField) (id : NodeId) (elts : List Node) (h : KeyedLit elts) :
    (∀ e v, e ∈ elts → IsPair e field.name v → findFieldInit field (.compositeLit id elts) = (some v, [])) ∧
    ((∀ e ∈ elts, ∀ v, ¬ IsPair e field.name v) → findFieldInit field (.compositeLit id elts) = (none, [])) := by
  by_cases hne : elts = []
  · subst hne; simp [findFieldInit, findFieldInitIn]
  · have hlen : elts.length ≠ 0 := fun h => hne (List.length_eq_zero_iff.1 h)
    obtain ⟨k1, k2, k3⟩ := findKeyed_spec field.name elts h.pairs hne
    simp only [findFieldInit, findFieldInitIn, hlen, if_false]
    generalize hk : findKeyed field.name elts = y at *
    obtain ⟨b, r⟩ := y
    simp only at k1 k2 k3
    subst k1
    constructor
    · intro e v he hp
      cases r with
      | none => exact absurd hp (k2.1 rfl e he v)
      | some w =>
        obtain ⟨e', he', hp'⟩ := k3 w rfl
        have : e = e' := by
          obtain ⟨i, hi, rfl⟩ := List.mem_iff_getElem.1 he
          obtain ⟨j, hj, rfl⟩ := List.mem_iff_getElem.1 he'
          rcases Nat.lt_trichotomy i j with hlt | rfl | hlt
          · exact absurd hp' (List.pairwise_iff_getElem.1 h.distinct i j hi hj hlt _ _ _ hp)
          · rfl
          · exact absurd hp (List.pairwise_iff_getElem.1 h.distinct j i hj hi hlt _ _ _ hp')
        subst this
        obtain ⟨_, _, he1, -⟩ := hp
        obtain ⟨_, _, he2, -⟩ := hp'
        rw [he1] at he2
        injection he2 with _ _ he2
        rw [he2]
    · intro hno
      rw [k2.2 hno]

/-- **C28.** Changing the order of the keys changes nothing. -/
theorem key_order (field : ErrorCodeField) (id id' : NodeId) (elts elts' : List Node) (h : KeyedLit elts)
    (perm : elts'.Perm elts) :
    findFieldInit field (.compositeLit id' elts') = findFieldInit field (.compositeLit id elts) := by
  have h' : KeyedLit elts' := by
    refine ⟨fun e he => h.pairs e (perm.mem_iff.1 he), perm.symm.pairwise h.distinct ?_⟩
    intro a b hab n v w ha hb
    exact hab n w v hb ha
  obtain ⟨a1, a2⟩ := keyed_literal field id elts h
  obtain ⟨b1, b2⟩ := keyed_literal field id' elts' h'
  by_cases hx : ∃ e ∈ elts, ∃ v, IsPair e field.name v
  · obtain ⟨e, he, v, hp⟩ := hx
    rw [a1 e v he hp, b1 e v (perm.mem_iff.2 he) hp]
  · have hno : ∀ e ∈ elts, ∀ v, ¬ IsPair e field.name v := fun e he v hp => hx ⟨e, he, v, hp⟩
    rw [a2 hno, b2 fun e he => hno e (perm.mem_iff.1 he)]

/-- **C28.** A positional literal of a struct with fields `names` (none of whose values is a key-value
pair) and the corresponding keyed literal, in any key order, give the same code expression: the value at
the field's position. -/
theorem positional_eq_keyed (names : List GoString) (values elts : List Node) (id id' : NodeId) (ids : Nat → NodeId × Ident)
    (k : Nat) (name : GoString) (nodup : names.Nodup) (len : values.length = names.length)
    (plain : ∀ v ∈ values, ∀ i a b, v ≠ .keyValue i a b)
    (hk : names[k]? = some name) (perm : elts.Perm (keyed ids names values)) :
    ∃ v, values[k]? = some v ∧
      findFieldInit ⟨name, k⟩ (.compositeLit id values) = (some v, []) ∧
      findFieldInit ⟨name, k⟩ (.compositeLit id' elts) = (some v, []) := by
  obtain ⟨hlt, hname⟩ := List.getElem?_eq_some_iff.1 hk
  have hlt' : k < values.length := by omega
  refine ⟨values[k], List.getElem?_eq_getElem hlt', ?_, ?_⟩
  · have hlen : values.length ≠ 0 := by omega
    simp only [findFieldInit, findFieldInitIn, hlen, if_false]
    have : findKeyed name values = (false, none) := by
      cases values with
      | nil => rfl
      | cons v vs =>
        unfold findKeyed
        split
        · rename_i heq; injection heq with h1 _; exact absurd h1 (plain v (by simp) _ _ _)
        · rename_i heq; injection heq with h1 _; exact absurd h1 (plain v (by simp) _ _ _)
        · rfl
    simp [this, hlt']
  · have hl : (keyed ids names values).length = names.length := by simp [keyed, len]
    have get : ∀ i (h : i < (keyed ids names values).length), (keyed ids names values)[i] =
        .keyValue (ids i).1 (.ident { (ids i).2 with name := names[i]'(by omega) }) (values[i]'(by omega)) := by
      intro i h; simp [keyed]
    have hkl : KeyedLit (keyed ids names values) := by
      constructor
      · intro e he
        obtain ⟨i, hi, rfl⟩ := List.mem_iff_getElem.1 he
        exact ⟨_, _, _, _, get i hi, rfl⟩
      · rw [List.pairwise_iff_getElem]
        intro i j hi hj hij n v w h1 h2
        obtain ⟨_, a, ha, hna⟩ := h1
        obtain ⟨_, b, hb, hnb⟩ := h2
        rw [get i hi] at ha
        rw [get j hj] at hb
        injection ha with _ ha _; injection ha with ha
        injection hb with _ hb _; injection hb with hb
        subst ha; subst hb
        simp only at hna hnb
        have := (List.nodup_iff_pairwise_ne.1 nodup)
        exact List.pairwise_iff_getElem.1 this i j (by omega) (by omega) hij (hna.trans hnb.symm)
    have hkk : k < (keyed ids names values).length := by omega
    rw [key_order ⟨name, k⟩ id' id' _ _ hkl perm]
    refine (keyed_literal ⟨name, k⟩ id' _ hkl).1 _ _ (List.getElem_mem hkk) ⟨_, _, get k hkk, hname⟩

/-- The node for which problems are reported matters for nothing else. -/
theorem findFieldInitIn_at (field : ErrorCodeField) (a b : NodeId) (e : Node) :
    (findFieldInitIn field a e).1 = (findFieldInitIn field b e).1 ∧
    ((findFieldInitIn field a e).2 = [] ↔ (findFieldInitIn field b e).2 = []) := by
  match e with
  | .paren _ x => simp only [findFieldInitIn]; exact findFieldInitIn_at field a b x
  | .compositeLit _ elts =>
    simp only [findFieldInitIn]
    by_cases h0 : elts.length = 0
    · simp [h0]
    · rcases hk : findKeyed field.name elts with ⟨_ | _, _ | _⟩ <;> by_cases hp : field.position < elts.length <;>
        simp [h0, hp]
  | .unary _ isAnd x => simp only [findFieldInitIn]; split <;> simp
  | .ident _ | .basicLit _ | .keyValue .. | .funcLit .. | .selector .. | .index .. | .typeAssert ..
  | .call .. | .assign .. | .ret .. | .valueSpec .. | .typeSwitch .. | .caseClause .. | .range .. | .send ..
  | .other .. => simp [findFieldInitIn]

/-- **C28.** Taking the address of a literal changes nothing; parentheses change nothing but the location of reports. -/
theorem literal_wrapped (field : ErrorCodeField) (id : NodeId) (e : Node) :
    findFieldInit field (.unary id true e) = findFieldInit field e ∧
    (findFieldInit field (.paren id e)).1 = (findFieldInit field e).1 ∧
    ((findFieldInit field (.paren id e)).2 = [] ↔ (findFieldInit field e).2 = []) := by
  refine ⟨by simp [findFieldInit, findFieldInitIn], ?_⟩
  have := findFieldInitIn_at field id e.id e
  simpa [findFieldInit, findFieldInitIn, Node.id] using this

/-! ## C26 — calls of error constructors contribute the argument at the declared position -/

/-- **C26.** A call of an error constructor whose parameter has position `p` looks at exactly the argument
at position `p`: a well-formed constant there contributes itself (up to the length limit of C27) whatever
the other arguments are. -/
theorem constructor_argument (env : Env) (hp : PrintsAscii env.isPrint) (f : FnId) (at_ : NodeId) (o : Object) (p : Nat)
    (args : List Node) (arg : Node) (fact : env.facts.ctor o = some p) (harg : args[p]? = some arg) :
    extractErrorCodeFromConstructorCall env f at_ (some o) (some args) =
      .ok (extractErrorCodeFromStringExpression env f arg) ∧
    (∀ s, env.value arg.id = some (.str s) → WellFormed s → s.length ≤ 70 →
      extractErrorCodeFromConstructorCall env f at_ (some o) (some args) = .ok (some s, [])) := by
  have h1 : extractErrorCodeFromConstructorCall env f at_ (some o) (some args) =
      .ok (extractErrorCodeFromStringExpression env f arg) := by
    simp [extractErrorCodeFromConstructorCall, fact, harg]
  refine ⟨h1, ?_⟩
  intro s hv hw hl
  rw [h1, constant_accepted_partial env hp f arg s hv hw hl]

/-- **C26.** A function that is not an error constructor never contributes an argument; a constructor used
as a value is reported. -/
theorem constructor_otherwise (env : Env) (f : FnId) (at_ : NodeId) (callee : Option Object) :
    (∀ args, callee.bind env.facts.ctor = none →
      extractErrorCodeFromConstructorCall env f at_ callee args = .ok (none, [])) ∧
    (∀ o p, callee = some o → env.facts.ctor o = some p →
      extractErrorCodeFromConstructorCall env f at_ callee none = .ok (none, [⟨at_, .constructorAsValue o⟩])) := by
  cases callee with
  | none => simp [extractErrorCodeFromConstructorCall]
  | some o =>
    constructor
    · intro args h; simp only [Option.bind_some] at h; simp [extractErrorCodeFromConstructorCall, h]
    · intro o' p h h'; cases h; simp [extractErrorCodeFromConstructorCall, h']

/-- C26/C22 do not hold of the code for `NewErr(args())`, where one call yields all arguments: with the
declared position beyond the (syntactic) argument list the analyzer panics. -/
theorem multi_value_argument_panics (env : Env) (f : FnId) (at_ : NodeId) (o : Object) (p : Nat) (arg : Node)
    (fact : env.facts.ctor o = some p) (hp : 1 ≤ p) :
    ∃ loc, extractErrorCodeFromConstructorCall env f at_ (some o) (some [arg]) = .error (.panic loc) := by
  have : ([arg] : List Node)[p]? = none := by rw [List.getElem?_eq_none]; simp; omega
  simp [extractErrorCodeFromConstructorCall, fact, this]

/-! ## Non-vacuity -/

example : PrintsAscii (fun r => decide (32 ≤ r) && decide (r < 127)) := fun _ _ => rfl
example : WellFormed b!"some-code" := (isErrorCodeValid_iff_wellFormed _).1 (by decide)
-- `T{Msg: "m", TheCode: "c"}` and `T{"c", "m"}` for `type T struct{ TheCode, Msg string }`.
example :
    findFieldInit ⟨b!"TheCode", 0⟩ (.compositeLit 1 [.basicLit 2, .basicLit 3]) = (some (.basicLit 2), []) ∧
    findFieldInit ⟨b!"TheCode", 0⟩ (.compositeLit 1
      [.keyValue 4 (.ident ⟨5, b!"Msg", none⟩) (.basicLit 3), .keyValue 6 (.ident ⟨7, b!"TheCode", none⟩) (.basicLit 2)]) =
      (some (.basicLit 2), []) := by
  simp [findFieldInit, findFieldInitIn, findKeyed]
example : KeyedLit [.keyValue 4 (.ident ⟨5, b!"Msg", none⟩) (.basicLit 3),
    .keyValue 6 (.ident ⟨7, b!"TheCode", none⟩) (.basicLit 2)] := by
  constructor
  · intro e he
    simp only [List.mem_cons, List.not_mem_nil, or_false] at he
    rcases he with rfl | rfl
    · exact ⟨_, _, _, _, rfl, rfl⟩
    · exact ⟨_, _, _, _, rfl, rfl⟩
  · simp only [List.pairwise_cons, List.mem_singleton, forall_eq, List.not_mem_nil, false_implies, implies_true,
      List.Pairwise.nil, and_true]
    rintro n v w ⟨_, i, hi, rfl⟩ ⟨_, j, hj, hn⟩
    injection hi with _ hi _; injection hi with hi
    injection hj with _ hj _; injection hj with hj
    subst hi; subst hj
    exact absurd hn (by decide)

end Serum.Props.Extract
