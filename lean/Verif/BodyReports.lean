import Verif.Spec.BodyReportSpec
import Verif.Props.TypeReports
import Verif.BodyCrash

/-! # The reports about a function body, exactly -/

namespace Serum
namespace BodyReports
open Flow Taint Analyse TypeReports Props.TypeReports

variable {env : Env} {f : FnId} {body : List Node} {fuel : Nat}

/-- The diagnostic is one of the steps. -/
def Reports (p : BodyPlan) (d : Diag) : Prop := .report d ∈ p.leaves

@[simp] theorem reports_union {p q : BodyPlan} {d : Diag} : Reports (.union p q) d ↔ Reports p d ∨ Reports q d := by
  simp [Reports, Plan.leaves]
@[simp] theorem reports_codes {s : CodeSet} {d : Diag} : ¬ Reports (.codes s) d := by simp [Reports, Plan.leaves]
@[simp] theorem reports_report {d d' : Diag} : Reports (.report d') d ↔ d = d' := by simp [Reports, Plan.leaves]
@[simp] theorem reports_call {g : FnId} {d : Diag} : ¬ Reports (.call g) d := by simp [Reports, Plan.leaves]
@[simp] theorem reports_visit {g : FnId} {d : Diag} : ¬ Reports (.visit g) d := by simp [Reports, Plan.leaves]
@[simp] theorem reports_panic {l : String} {d : Diag} : ¬ Reports (.panic l) d := by simp [Reports, Plan.leaves]
@[simp] theorem reports_list {ds : List Diag} {d : Diag} : Reports (reports ds) d ↔ d ∈ ds := by
  unfold Reports; rw [reports_leaves]; simp
@[simp] theorem reports_founds {x : Founds} {d : Diag} : Reports (founds x) d ↔ d ∈ x.2 := by simp [founds]
@[simp] theorem reports_foundCode {x : Found} {d : Diag} : Reports (foundCode x) d ↔ d ∈ x.2 := by simp [foundCode]

/-! ## Expressions for codes -/

theorem code_reports (ascii : PrintsAscii env.isPrint) {v : Node} {d : Diag} :
    d ∈ (extractErrorCodeFromStringExpression env f v).2 ↔ CodeProblem env f v d := by
  rw [extract_reports ascii]
  constructor
  · rintro (⟨k, hv, hk, why, hw, rfl⟩ | ⟨hv, hp, rfl⟩ | ⟨hv, i, p, hi, hp, hn, rfl⟩)
    · exact .constant hv hk hw
    · exact .other hv hp
    · exact .parameter hv hi hp hn
  · intro h
    cases h with
    | constant h1 h2 h3 => exact .inl ⟨_, h1, h2, _, h3, rfl⟩
    | other h1 h2 => exact .inr (.inl ⟨h1, h2, rfl⟩)
    | parameter h1 h2 h3 h4 => exact .inr (.inr ⟨h1, _, _, h2, h3, h4, rfl⟩)

/-! ## Literals -/

theorem findKeyed_some {name : GoString} {v : Node} : ∀ {elts : List Node}, (findKeyed name elts).2 = some v ↔
    ∃ pre post id i, elts = pre ++ .keyValue id (.ident i) v :: post ∧ i.name = name ∧
      ∀ m ∈ pre, ∃ id i w, m = .keyValue id (.ident i) w ∧ i.name ≠ name
  | [] => by simp [findKeyed]
  | e :: es => by
    have ih := findKeyed_some (name := name) (v := v) (elts := es)
    have other : (∀ id i w, e ≠ .keyValue id (.ident i) w) → ¬ ∃ pre post id i, e :: es = pre ++ .keyValue id (.ident i) v :: post ∧ i.name = name ∧
        ∀ m ∈ pre, ∃ id i w, m = .keyValue id (.ident i) w ∧ i.name ≠ name := by
      rintro hno ⟨pre, post, id, i, h, -, hp⟩
      cases pre with
      | nil => simp only [List.nil_append, List.cons.injEq] at h; exact hno _ _ _ h.1
      | cons m pre =>
        simp only [List.cons_append, List.cons.injEq] at h
        obtain ⟨id, i, w, hm, -⟩ := hp m (by simp)
        exact hno _ _ _ (h.1.trans hm)
    unfold findKeyed
    split
    · rename_i id i w es' he
      obtain ⟨rfl, rfl⟩ : e = .keyValue id (.ident i) w ∧ es = es' := by simpa using he
      split
      · rename_i hn
        simp only [Option.some.injEq]
        constructor
        · rintro rfl; exact ⟨[], es, id, i, rfl, hn.symm, by simp⟩
        · rintro ⟨pre, post, id', i', h, hn', hp⟩
          cases pre with
          | nil => simp only [List.nil_append, List.cons.injEq, Node.keyValue.injEq] at h; exact h.1.2.2
          | cons m pre =>
            simp only [List.cons_append, List.cons.injEq] at h
            obtain ⟨id'', i'', w', hm, hne⟩ := hp m (by simp)
            rw [← h.1] at hm; cases hm; exact absurd hn.symm hne
      · rename_i hn
        rw [ih]
        constructor
        · rintro ⟨pre, post, id', i', rfl, hn', hp⟩
          refine ⟨.keyValue id (.ident i) w :: pre, post, id', i', rfl, hn', fun m hm => ?_⟩
          rcases List.mem_cons.1 hm with rfl | hm
          · exact ⟨_, _, _, rfl, fun h => hn h.symm⟩
          · exact hp m hm
        · rintro ⟨pre, post, id', i', h, hn', hp⟩
          cases pre with
          | nil => simp only [List.nil_append, List.cons.injEq, Node.keyValue.injEq, Node.ident.injEq] at h; rw [h.1.2.1] at hn; exact absurd hn'.symm hn
          | cons m pre =>
            simp only [List.cons_append, List.cons.injEq] at h
            exact ⟨pre, post, id', i', h.2, hn', fun m hm => hp m (List.mem_cons_of_mem _ hm)⟩
    · rename_i hno he
      obtain ⟨rfl, rfl⟩ : e = _ ∧ es = _ := by simpa using he
      simp only [reduceCtorEq, false_iff]
      refine other fun id i w h => ?_
      cases h
      exact hno _ rfl
    · rename_i h1 h2
      simp only [reduceCtorEq, false_iff]
      exact other fun id i w h => h2 _ _ _ _ (by rw [h])

theorem findKeyed_flag {name : GoString} {elts : List Node} :
    (findKeyed name elts).1 = true ↔ ∃ m id k w, elts.head? = some m ∧ m = .keyValue id k w := by
  cases elts with
  | nil => simp [findKeyed]
  | cons e es =>
    unfold findKeyed
    split
    · rename_i he
      obtain ⟨rfl, rfl⟩ : e = _ ∧ es = _ := by simpa using he
      split <;> simp
    · rename_i he
      obtain ⟨rfl, rfl⟩ : e = _ ∧ es = _ := by simpa using he
      simp
    · rename_i h1 h2
      simp only [Bool.false_eq_true, List.head?_cons, Option.some.injEq, false_iff]
      rintro ⟨m, id, k, w, rfl, rfl⟩
      exact h2 _ _ _ _ rfl

/-- The expression for the field in a composite literal. -/
theorem literal_initial {field : ErrorCodeField} {at_ id : NodeId} {elts : List Node} :
    (∀ v, (findFieldInitIn field at_ (.compositeLit id elts)).1 = some v ↔ Initial field elts v) ∧
    (∀ d, d ∈ (findFieldInitIn field at_ (.compositeLit id elts)).2 ↔ d = ⟨at_, .noInitialiser⟩ ∧ ∃ m, elts.head? = some m ∧
      (∀ id k w, m ≠ .keyValue id k w) ∧ elts.length ≤ field.position) := by
  unfold findFieldInitIn
  split
  · rename_i hl
    have : elts = [] := List.length_eq_zero_iff.1 hl
    subst this
    refine ⟨fun v => ?_, by simp⟩
    simp only [reduceCtorEq, false_iff]
    intro h
    cases h with
    | keyed h _ _ => cases ‹List Node› <;> simp at h
    | positional _ h => simp at h
  · rename_i hl
    have hne : elts ≠ [] := fun h => hl (by simp [h])
    obtain ⟨m, hm⟩ : ∃ m, elts.head? = some m := by cases elts with | nil => exact absurd rfl hne | cons a _ => exact ⟨a, rfl⟩
    have hk := fun v => findKeyed_some (name := field.name) (v := v) (elts := elts)
    have hf := findKeyed_flag (name := field.name) (elts := elts)
    -- a keyed first element
    have keyedHead : (findKeyed field.name elts).1 = true → ¬ ∀ m, elts.head? = some m → ∀ id k w, m ≠ .keyValue id k w := by
      intro h hno
      obtain ⟨m', id', k, w, h1, h2⟩ := hf.1 h
      exact hno m' h1 _ _ _ h2
    have headKeyed : ∀ v, (findKeyed field.name elts).2 = some v → (findKeyed field.name elts).1 = true := by
      intro v h
      obtain ⟨pre, post, id', i, he, -, hp⟩ := (hk v).1 h
      refine hf.2 ?_
      cases pre with
      | nil => exact ⟨_, _, _, _, by rw [he]; rfl, rfl⟩
      | cons a pre =>
        obtain ⟨id'', i', w, ha, -⟩ := hp a (by simp)
        exact ⟨_, _, _, _, by rw [he]; rfl, ha⟩
    split
    · rename_i b v hr
      have h2 : (findKeyed field.name elts).2 = some v := by rw [hr]
      have h1 := headKeyed v h2
      refine ⟨fun w => ?_, fun d => ?_⟩
      · simp only [Option.some.injEq]
        constructor
        · rintro rfl
          obtain ⟨pre, post, id', i, he, hn, hp⟩ := (hk v).1 h2
          exact .keyed he hn hp
        · intro h
          cases h with
          | keyed he hn hp => have := (hk w).2 ⟨_, _, _, _, he, hn, hp⟩; rw [h2] at this; exact Option.some.inj this
          | positional h _ => exact absurd h (keyedHead h1)
      · simp only [List.not_mem_nil, false_iff]
        rintro ⟨-, m', hm', hno, -⟩
        exact keyedHead h1 fun m'' h => by rw [hm'] at h; cases h; exact hno
    · rename_i hr
      have h1 : (findKeyed field.name elts).1 = true := by rw [hr]
      have h2 : (findKeyed field.name elts).2 = none := by rw [hr]
      refine ⟨fun w => ?_, fun d => ?_⟩
      · simp only [reduceCtorEq, false_iff]
        intro h
        cases h with
        | keyed he hn hp => have := (hk w).2 ⟨_, _, _, _, he, hn, hp⟩; rw [h2] at this; cases this
        | positional h _ => exact absurd h (keyedHead h1)
      · simp only [List.not_mem_nil, false_iff]
        rintro ⟨-, m', hm', hno, -⟩
        exact keyedHead h1 fun m'' h => by rw [hm'] at h; cases h; exact hno
    · rename_i hr
      have h1 : ¬ (findKeyed field.name elts).1 = true := by rw [hr]; simp
      have h2 : (findKeyed field.name elts).2 = none := by rw [hr]
      have hno : ∀ id k w, m ≠ .keyValue id k w := fun id k w h => h1 (hf.2 ⟨m, id, k, w, hm, h⟩)
      have hno' : ∀ m, elts.head? = some m → ∀ id k w, m ≠ .keyValue id k w := fun m' h => by rw [hm] at h; cases h; exact hno
      have hpos : ∀ w, elts[field.position]? = some w ↔ Initial field elts w := by
        intro w
        constructor
        · exact .positional hno'
        · intro h
          cases h with
          | keyed he hn hp => have := (hk w).2 ⟨_, _, _, _, he, hn, hp⟩; rw [h2] at this; cases this
          | positional _ h => exact h
      split
      · rename_i hlt
        refine ⟨hpos, fun d => ?_⟩
        simp only [List.not_mem_nil, false_iff]
        rintro ⟨-, _, _, _, h⟩; omega
      · rename_i hge
        refine ⟨fun w => ?_, fun d => ?_⟩
        · rw [← hpos w, List.getElem?_eq_none_iff.2 (by omega)]
        · simp only [List.mem_singleton]
          exact ⟨fun h => ⟨h, m, hm, hno, by omega⟩, fun h => h.1⟩

theorem opened_eq {e : Node} {field : ErrorCodeField} {at_ : NodeId} {m : Node} (h : Opened e at_ m) :
    findFieldInit field e = findFieldInitIn field at_ m := by
  induction h with
  | start => rfl
  | paren _ ih => rw [ih]; rfl
  | address _ ih => rw [ih]; simp [findFieldInitIn]

/-- Under parentheses and `&` there is something else. -/
theorem opened_core {e : Node} : ∀ (m : Node) {at_ : NodeId}, Opened e at_ m →
    ∃ at' m', Opened e at' m' ∧ (∀ id x, m' ≠ .paren id x) ∧ ∀ id x, m' ≠ .unary id true x
  | .paren id x, at_, h => opened_core x (.paren h)
  | .unary id true x, at_, h => opened_core x (.address h)
  | .unary id false x, at_, h => ⟨at_, _, h, by simp, by simp⟩
  | .ident _, at_, h => ⟨at_, _, h, by simp, by simp⟩
  | .basicLit .., at_, h => ⟨at_, _, h, by simp, by simp⟩
  | .compositeLit .., at_, h => ⟨at_, _, h, by simp, by simp⟩
  | .keyValue .., at_, h => ⟨at_, _, h, by simp, by simp⟩
  | .funcLit .., at_, h => ⟨at_, _, h, by simp, by simp⟩
  | .selector .., at_, h => ⟨at_, _, h, by simp, by simp⟩
  | .index .., at_, h => ⟨at_, _, h, by simp, by simp⟩
  | .typeAssert .., at_, h => ⟨at_, _, h, by simp, by simp⟩
  | .call .., at_, h => ⟨at_, _, h, by simp, by simp⟩
  | .assign .., at_, h => ⟨at_, _, h, by simp, by simp⟩
  | .ret .., at_, h => ⟨at_, _, h, by simp, by simp⟩
  | .valueSpec .., at_, h => ⟨at_, _, h, by simp, by simp⟩
  | .typeSwitch .., at_, h => ⟨at_, _, h, by simp, by simp⟩
  | .caseClause .., at_, h => ⟨at_, _, h, by simp, by simp⟩
  | .range .., at_, h => ⟨at_, _, h, by simp, by simp⟩
  | .send .., at_, h => ⟨at_, _, h, by simp, by simp⟩
  | .other .., at_, h => ⟨at_, _, h, by simp, by simp⟩

theorem findInit_noLiteral {field : ErrorCodeField} {at_ : NodeId} {m : Node} (h1 : ∀ id elts, m ≠ .compositeLit id elts)
    (h2 : ∀ id x, m ≠ .paren id x) (h3 : ∀ id x, m ≠ .unary id true x) :
    findFieldInitIn field at_ m = (none, [⟨at_, .noInitialiser⟩]) := by
  cases m with
  | compositeLit id elts => exact absurd rfl (h1 _ _)
  | paren id x => exact absurd rfl (h2 _ _)
  | unary id b x =>
    cases b with
    | true => exact absurd rfl (h3 _ _)
    | false => simp [findFieldInitIn]
  | _ => simp [findFieldInitIn]

/-- What is reported for the code field of a literal. -/
theorem field_reports (ascii : PrintsAscii env.isPrint) {e : Node} {field : ErrorCodeField} {d : Diag} :
    d ∈ (extractFieldErrorCode env f e field).2 ↔
      (∃ at_ id elts v, Opened e at_ (.compositeLit id elts) ∧ Initial field elts v ∧ CodeProblem env f v d) ∨
      (∃ at_ id elts m, Opened e at_ (.compositeLit id elts) ∧ elts.head? = some m ∧ (∀ id k w, m ≠ .keyValue id k w) ∧
        elts.length ≤ field.position ∧ d = ⟨at_, .noInitialiser⟩) ∨
      (∃ at_ m, Opened e at_ m ∧ (∀ id elts, m ≠ .compositeLit id elts) ∧ (∀ id x, m ≠ .paren id x) ∧ (∀ id x, m ≠ .unary id true x) ∧
        d = ⟨at_, .noInitialiser⟩) := by
  have split : d ∈ (extractFieldErrorCode env f e field).2 ↔ d ∈ (findFieldInit field e).2 ∨
      ∃ v, (findFieldInit field e).1 = some v ∧ CodeProblem env f v d := by
    unfold extractFieldErrorCode
    rcases h : findFieldInit field e with ⟨v, ds⟩
    cases v with
    | none => simp
    | some v => simp [code_reports ascii]
  rw [split]
  constructor
  · intro h
    obtain ⟨at_, m, ho, hp, hu⟩ := opened_core e .start
    rw [opened_eq ho] at h
    by_cases hc : ∃ id elts, m = .compositeLit id elts
    · obtain ⟨id, elts, rfl⟩ := hc
      obtain ⟨l1, l2⟩ := literal_initial (field := field) (at_ := at_) (id := id) (elts := elts)
      rcases h with h | ⟨v, hv, h⟩
      · obtain ⟨rfl, m, h1, h2, h3⟩ := (l2 d).1 h
        exact .inr (.inl ⟨_, _, _, _, ho, h1, h2, h3, rfl⟩)
      · exact .inl ⟨_, _, _, _, ho, (l1 v).1 hv, h⟩
    · have hc : ∀ id elts, m ≠ .compositeLit id elts := fun id elts h => hc ⟨id, elts, h⟩
      rw [findInit_noLiteral hc hp hu] at h
      simp only [List.mem_singleton, reduceCtorEq, false_and, exists_false, or_false] at h
      exact .inr (.inr ⟨at_, m, ho, hc, hp, hu, h⟩)
  · rintro (⟨at_, id, elts, v, ho, hi, h⟩ | ⟨at_, id, elts, m, ho, h1, h2, h3, rfl⟩ | ⟨at_, m, ho, hc, hp, hu, rfl⟩)
    · rw [opened_eq ho]; exact .inr ⟨v, (literal_initial.1 v).2 hi, h⟩
    · rw [opened_eq ho]; exact .inl ((literal_initial.2 _).2 ⟨rfl, m, h1, h2, h3⟩)
    · rw [opened_eq ho, findInit_noLiteral hc hp hu]; simp

theorem literal_reports (ascii : PrintsAscii env.isPrint) {e : Node} {d : Diag} :
    d ∈ (extractErrorCodesFromAffector env f e).2 ↔ LiteralProblem env f e d := by
  unfold extractErrorCodesFromAffector
  by_cases hl : checkErrorTypeHasLegibleCode env e = true
  · have hl' : env.implCode (env.typeOf e.id) = true ∨ env.implCode (.pointer (env.typeOf e.id)) = true := by
      simpa [checkErrorTypeHasLegibleCode] using hl
    have hno : ¬ (env.implCode (env.typeOf e.id) = false ∧ env.implCode (.pointer (env.typeOf e.id)) = false) := by
      rintro ⟨h1, h2⟩; rw [h1, h2] at hl'; simp at hl'
    simp only [hl, not_true_eq_false, if_false]
    cases ht : env.getErrorTypeForError (env.typeOf e.id) with
    | none =>
      simp only [List.mem_singleton]
      constructor
      · rintro rfl; exact .unknown hl' ht
      · intro h
        cases h with
        | noCode h1 h2 => exact absurd ⟨h1, h2⟩ hno
        | unknown _ _ => rfl
        | code _ h => rw [ht] at h; cases h
        | short _ h => rw [ht] at h; cases h
        | noLiteral _ h => rw [ht] at h; cases h
    | some t =>
      cases hf : t.field with
      | none =>
        simp only [hf, List.not_mem_nil, false_iff]
        intro h
        cases h with
        | noCode h1 h2 => exact absurd ⟨h1, h2⟩ hno
        | unknown _ h => rw [ht] at h; cases h
        | code _ h h' => rw [ht] at h; cases h; rw [hf] at h'; cases h'
        | short _ h h' => rw [ht] at h; cases h; rw [hf] at h'; cases h'
        | noLiteral _ h h' => rw [ht] at h; cases h; rw [hf] at h'; cases h'
      | some field =>
        have hr := field_reports (f := f) ascii (e := e) (field := field) (d := d)
        rcases hx : extractFieldErrorCode env f e field with ⟨c, ds⟩
        rw [hx] at hr
        have this : ∀ p : Founds, p.2 = ds → (d ∈ p.2 ↔ d ∈ ds) := fun p hp => by rw [hp]
        simp only [hf]
        rw [this _ (by rw [hx]; cases c <;> rfl), hr]
        constructor
        · rintro (⟨at_, id, elts, v, ho, hi, h⟩ | ⟨at_, id, elts, m, ho, h1, h2, h3, rfl⟩ | ⟨at_, m, ho, hc, hp, hu, rfl⟩)
          · exact .code hl' ht hf ho hi h
          · exact .short hl' ht hf ho h1 h2 h3
          · exact .noLiteral hl' ht hf ho hc hp hu
        · intro h
          cases h with
          | noCode h1 h2 => exact absurd ⟨h1, h2⟩ hno
          | unknown _ h => rw [ht] at h; cases h
          | code _ h h' ho hi hp => rw [ht] at h; cases h; rw [hf] at h'; cases h'; exact .inl ⟨_, _, _, _, ho, hi, hp⟩
          | short _ h h' ho h1 h2 h3 => rw [ht] at h; cases h; rw [hf] at h'; cases h'; exact .inr (.inl ⟨_, _, _, _, ho, h1, h2, h3, rfl⟩)
          | noLiteral _ h h' ho h1 h2 h3 => rw [ht] at h; cases h; rw [hf] at h'; cases h'; exact .inr (.inr ⟨_, _, ho, h1, h2, h3, rfl⟩)
  · have hl' : env.implCode (env.typeOf e.id) = false ∧ env.implCode (.pointer (env.typeOf e.id)) = false := by
      simpa [checkErrorTypeHasLegibleCode] using hl
    rw [if_pos hl]
    simp only [List.mem_singleton]
    have hno : ¬ (env.implCode (env.typeOf e.id) = true ∨ env.implCode (.pointer (env.typeOf e.id)) = true) := by simp [hl'.1, hl'.2]
    constructor
    · rintro rfl; exact .noCode hl'.1 hl'.2
    · intro h
      cases h with
      | noCode _ _ => rfl
      | unknown h => exact absurd h hno
      | code h => exact absurd h hno
      | short h => exact absurd h hno
      | noLiteral h => exact absurd h hno

/-! ## Calls -/

/-- The reports of looking up a function by its name, other than a variable or a conversion. -/
theorem called_reports {lambdas : Ident → Except Stop BodyPlan} {fn : Node} {ce : Option (NodeId × List Node)}
    {r : BodyPlan ⊕ Option FnId} (h : calledFunction env f lambdas fn ce = .ok r)
    (hobj : ∀ i o, fn.unparen = .ident i → i.obj = some o → (∃ g, (env.object o).decl = .funcDecl g) ∨ ((env.object o).decl = .typeSpec ∧ ce = none))
    {d : Diag} :
    ((∃ p, r = .inl p ∧ Reports p d) ∨ (r = .inr none ∧ d = ⟨fn.id, .calleeUndeclared⟩)) ↔ NameProblem env fn d := by
  unfold calledFunction at h
  split at h
  · rename_i i hi
    have hsel : ∀ id x sel, fn.unparen ≠ .selector id x sel := by simp [hi]
    split at h
    · rename_i ho
      split at h
      · rename_i g hg
        cases h
        simp only [reduceCtorEq, false_and, exists_false, Sum.inr.injEq, or_self, false_iff]
        intro hn
        cases hn with
        | dotImport h1 h2 h3 => rw [hi] at h1; cases h1; rw [hg] at h3; cases h3
        | foreign h1 => exact absurd h1 (hsel _ _ _)
        | method h1 => exact absurd h1 (hsel _ _ _)
        | unnamed h1 => exact absurd hi (h1 _)
      · rename_i hg
        cases h
        simp only [Sum.inl.injEq, exists_eq_left', reports_report, reduceCtorEq, false_and, or_false]
        constructor
        · rintro rfl; exact .dotImport hi ho hg
        · intro hn
          cases hn with
          | dotImport h1 h2 h3 => rw [hi] at h1; cases h1; rfl
          | foreign h1 => exact absurd h1 (hsel _ _ _)
          | method h1 => exact absurd h1 (hsel _ _ _)
          | unnamed h1 => exact absurd hi (h1 _)
    · rename_i o ho
      have hno : ¬ NameProblem env fn d := by
        intro hn
        cases hn with
        | dotImport h1 h2 h3 => rw [hi] at h1; cases h1; rw [ho] at h2; cases h2
        | foreign h1 => exact absurd h1 (hsel _ _ _)
        | method h1 => exact absurd h1 (hsel _ _ _)
        | unnamed h1 => exact absurd hi (h1 _)
      simp only [hno, iff_false]
      rcases hobj i o hi ho with ⟨g, hg⟩ | ⟨ht, rfl⟩
      · simp only [hg] at h; cases h; simp
      · simp only [ht] at h; cases h; simp
  · rename_i id x sel hi
    dsimp only at h
    have key : (∀ t, x.unparen = .ident t → env.pkgName t.id = none) ↔ (match x.unparen with | .ident t => env.pkgName t.id | _ => none) = none := by
      split
      · rename_i t ht; exact ⟨fun h => h t ht, fun h t' ht' => by rw [ht] at ht'; cases ht'; exact h⟩
      · rename_i hn; exact ⟨fun _ => rfl, fun _ t ht => absurd ht (hn t)⟩
    split at h
    · rename_i pkg hpkg
      cases h
      simp only [Sum.inl.injEq, exists_eq_left', reports_report, reduceCtorEq, false_and, or_false]
      obtain ⟨t, ht, hp⟩ : ∃ t, x.unparen = .ident t ∧ env.pkgName t.id = some pkg := by
        split at hpkg
        · exact ⟨_, by assumption, hpkg⟩
        · cases hpkg
      constructor
      · rintro rfl; exact .foreign hi ht hp
      · intro hn
        cases hn with
        | dotImport h1 => rw [hi] at h1; cases h1
        | foreign h1 h2 h3 => rw [hi] at h1; cases h1; rw [ht] at h2; cases h2; rw [hp] at h3; cases h3; rfl
        | method h1 h2 => rw [hi] at h1; cases h1; rw [h2 t ht] at hp; cases hp
        | unnamed _ h1 => exact absurd hi (h1 _ _ _)
    · rename_i hpkg
      have hp := key.2 hpkg
      split at h
      · rename_i hs
        cases h
        simp only [Sum.inl.injEq, exists_eq_left', reports_panic, reduceCtorEq, false_and, or_false, false_iff]
        intro hn
        cases hn with
        | dotImport h1 => rw [hi] at h1; cases h1
        | foreign h1 h2 h3 => rw [hi] at h1; cases h1; rw [hp _ h2] at h3; cases h3
        | method h1 h2 h3 => rw [hi] at h1; cases h1; rw [hs] at h3; cases h3
        | unnamed _ h1 => exact absurd hi (h1 _ _ _)
      · rename_i recv o hs
        cases h
        simp only [reduceCtorEq, false_and, exists_false, Sum.inr.injEq, false_or]
        constructor
        · rintro ⟨hm, rfl⟩; exact .method hi hp hs hm
        · intro hn
          cases hn with
          | dotImport h1 => rw [hi] at h1; cases h1
          | foreign h1 h2 h3 => rw [hi] at h1; cases h1; rw [hp _ h2] at h3; cases h3
          | method h1 h2 h3 h4 => rw [hi] at h1; cases h1; rw [hs] at h3; cases h3; exact ⟨h4, rfl⟩
          | unnamed _ h1 => exact absurd hi (h1 _ _ _)
  · rename_i id g t b hi
    cases h
    simp only [reduceCtorEq, false_and, exists_false, Sum.inr.injEq, or_self, false_iff]
    intro hn
    cases hn with
    | dotImport h1 => rw [hi] at h1; cases h1
    | foreign h1 => rw [hi] at h1; cases h1
    | method h1 => rw [hi] at h1; cases h1
    | unnamed _ _ h1 => exact absurd hi (h1 _ _ _ _)
  · rename_i h1 h2 h3
    cases h
    simp only [Sum.inl.injEq, exists_eq_left', reports_report, reduceCtorEq, false_and, or_false]
    constructor
    · rintro rfl; exact .unnamed h1 h2 h3
    · intro hn
      cases hn with
      | dotImport h' => exact absurd h' (h1 _)
      | foreign h' => exact absurd h' (h2 _ _ _)
      | method h' => exact absurd h' (h2 _ _ _)
      | unnamed => rfl

/-- The reports of a function as value. -/
theorem value_reports {n : Nat} {m : Node} {callee : Option Object} {p : BodyPlan} (h : Analyse.call env f body fuel n m callee none = .ok p)
    (hobj : ∀ i o, m.unparen = .ident i → i.obj = some o → (∃ g, (env.object o).decl = .funcDecl g) ∨ (env.object o).decl = .typeSpec) {d : Diag} :
    Reports p d ↔ (∃ o position, callee = some o ∧ env.facts.ctor o = some position ∧ d = ⟨m.id, .constructorAsValue o⟩) ∨
      ((∀ o, callee = some o → env.facts.codes o = none) ∧ NameProblem env m d) := by
  cases n with
  | zero => simp [Analyse.call] at h
  | succ n =>
    unfold Analyse.call functionCall lift at h
    have hctor : ∃ ctor, extractErrorCodeFromConstructorCall env f m.id callee ((none : Option (NodeId × List Node)).map Prod.snd) = .ok ctor ∧
        ∀ d, d ∈ ctor.2 ↔ ∃ o position, callee = some o ∧ env.facts.ctor o = some position ∧ d = ⟨m.id, .constructorAsValue o⟩ := by
      unfold extractErrorCodeFromConstructorCall
      cases callee with
      | none => exact ⟨_, rfl, by simp⟩
      | some o =>
        cases hc : env.facts.ctor o with
        | none => exact ⟨_, by simp only [hc]; rfl, by simp [hc]⟩
        | some k => exact ⟨_, by simp only [hc, Option.map_none]; rfl, by simp [hc]⟩
    obtain ⟨ctor, hc, hcd⟩ := hctor
    rw [hc] at h
    dsimp only at h
    have hcodes : callee.bind env.facts.codes = none ↔ ∀ o, callee = some o → env.facts.codes o = none := by
      cases callee <;> simp
    split at h
    · rename_i codes hk
      cases h
      simp only [reports_union, reports_foundCode, reports_codes, or_false, hcd]
      have : ¬ ∀ o, callee = some o → env.facts.codes o = none := by rw [← hcodes, hk]; simp
      simp [this]
    · rename_i hk
      simp only [Option.isSome_none, Bool.false_eq_true, false_and, if_false, ne_eq, not_true_eq_false, bind, Except.bind] at h
      split at h
      · cases h
      · rename_i r hr
        have key := called_reports (d := d) hr (fun i o hi ho => (hobj i o hi ho).imp id fun h => ⟨h, rfl⟩)
        have hk' := hcodes.1 hk
        rw [← key, ← hcd]
        split at h
        · cases h
          simp only [reports_union, reports_list, Sum.inl.injEq, exists_eq_left', reduceCtorEq, false_and, or_false]
          exact or_congr Iff.rfl ⟨fun h => ⟨hk', h⟩, fun h => h.2⟩
        · cases h
          simp
        · cases h
          simp only [reports_union, reports_foundCode, reports_report, reduceCtorEq, false_and, exists_false, false_or, true_and]
          exact or_congr Iff.rfl ⟨fun h => ⟨hk', h⟩, fun h => h.2⟩

theorem lambdaAssignments_reports {name : GoString} {call : Node → Option Object → Except Stop BodyPlan} {d : Diag} :
    ∀ (es : List Node) {p : BodyPlan}, lambdaAssignments env name call es = .ok p →
    (Reports p d ↔ ∃ e ∈ es, ∃ q, lambdaAssignment env name call e = .ok q ∧ Reports q d)
  | [], p, h => by simp only [lambdaAssignments] at h; cases h; simp
  | e :: es, p, h => by
    simp only [lambdaAssignments, bind, Except.bind] at h
    split at h
    · cases h
    · rename_i a ha
      split at h
      · cases h
      · rename_i b hb
        simp only [pure, Except.pure] at h
        cases h
        rw [reports_union, lambdaAssignments_reports es hb]
        simp [ha]

/-- The reports of calling a variable. -/
theorem variable_reports (scope : LitsBeforeUses env body) {i : Ident} {x : ObjId} (ho : i.obj = some x)
    (hclean : CleanRoot env body i)
    (hfun : ∀ e j o, Value env f body none i e → e.unparen = .ident j → j.obj = some o →
      (∃ g, (env.object o).decl = .funcDecl g) ∨ (env.object o).decl = .typeSpec)
    {n : Nat} {p : BodyPlan} (hb : BodyOk body) (hfuel : enough env ≤ fuel)
    (h : allAssignedLambdas env f body fuel (fun m o => Analyse.call env f body fuel n m o none) i = .ok p) {d : Diag} :
    Reports p d ↔ VariableProblem env f body i d := by
  unfold allAssignedLambdas lift at h
  obtain ⟨t, ht⟩ := run_ok_fuel (function := env.func f) (param := none) hb hfuel [] i
  rw [ht] at h
  dsimp only at h
  obtain ⟨-, hexp, hdes, hout⟩ := run_spec scope ho hclean ht
  simp only [bind, Except.bind] at h
  split at h
  · cases h
  · rename_i q hq
    simp only [pure, Except.pure] at h
    cases h
    rw [reports_union, reports_list, lambdaAssignments_reports _ hq]
    have hval : ∀ e, e ∈ t.expressions ↔ ∃ e', Value env f body none i e' ∧ e = e'.unparen := by
      intro e
      rw [hexp]
      constructor
      · rintro ⟨x, e', h1, h2, h3, h4⟩; exact ⟨e', ⟨x, h1, h2, h3⟩, h4⟩
      · rintro ⟨e', ⟨x, h1, h2, h3⟩, h4⟩; exact ⟨x, e', h1, h2, h3, h4⟩
    have hden : ∀ e : Node, ∀ o, Denotes env e.unparen o ↔
        (∃ j, e.unparen = .ident j ∧ env.uses j.id = some o) ∨
        ∃ id x sel, e.unparen = .selector id x sel ∧ (match env.selection id with | some (_, o) => some o | none => env.uses sel.id) = some o := by
      intro e o
      unfold Denotes
      refine or_congr Iff.rfl ⟨?_, ?_⟩
      · rintro ⟨id, x, sel, h, ⟨recv, h'⟩ | ⟨h', h''⟩⟩
        · exact ⟨id, x, sel, h, by simp [h']⟩
        · exact ⟨id, x, sel, h, by simp [h', h'']⟩
      · rintro ⟨id, x, sel, h, h'⟩
        refine ⟨id, x, sel, h, ?_⟩
        split at h'
        · rename_i r o' hs; cases h'; exact .inl ⟨r, hs⟩
        · rename_i hs; exact .inr ⟨hs, h'⟩
    constructor
    · rintro (h | ⟨e, he, q', hq', hr⟩)
      · rcases List.mem_append.1 h with h | h
        · obtain ⟨j, hj, rfl⟩ := List.mem_map.1 h
          exact .escapes ((hout j).1 hj)
        · obtain ⟨d', hd', rfl⟩ := List.mem_map.1 h
          obtain ⟨y, h1, h2⟩ := (hdes d').1 hd'
          exact .destructured h1 h2
      · obtain ⟨e', hv, rfl⟩ := (hval e).1 he
        have hobj : ∀ j o, e'.unparen.unparen = .ident j → j.obj = some o → (∃ g, (env.object o).decl = .funcDecl g) ∨ (env.object o).decl = .typeSpec :=
          fun j o hj ho => hfun e' j o hv (by rwa [Node.unparen_unparen] at hj) ho
        unfold lambdaAssignment at hq'
        rw [Node.unparen_unparen] at hq'
        split at hq'
        · cases hq'; simp at hr
        · rename_i j hj
          rw [← hj] at hq'
          rcases (value_reports hq' hobj).1 hr with ⟨o, k, h1, h2, rfl⟩ | ⟨h1, h2⟩
          · exact .constructor hv ((hden e' o).2 (.inl ⟨j, hj, h1⟩)) h2
          · refine .named hv (fun o h => h1 o ?_) (.inl ⟨j, hj⟩) h2
            rcases (hden e' o).1 h with ⟨j', hj', h'⟩ | ⟨_, _, _, hj', -⟩
            · rw [hj] at hj'; cases hj'; exact h'
            · rw [hj] at hj'; cases hj'
        · rename_i id y sel hj
          rw [← hj] at hq'
          rcases (value_reports hq' hobj).1 hr with ⟨o, k, h1, h2, rfl⟩ | ⟨h1, h2⟩
          · exact .constructor hv ((hden e' o).2 (.inr ⟨_, _, _, hj, h1⟩)) h2
          · refine .named hv (fun o h => h1 o ?_) (.inr ⟨_, _, _, hj⟩) h2
            rcases (hden e' o).1 h with ⟨j', hj', h'⟩ | ⟨_, _, _, hj', h'⟩
            · rw [hj] at hj'; cases hj'
            · rw [hj] at hj'; cases hj'; exact h'
        · rename_i h1 h2 h3
          cases hq'
          rw [reports_report] at hr
          subst hr
          exact .unsupported hv h1 h2 h3
    · -- the result of one assigned expression
      have one : ∀ e', Value env f body none i e' → ∃ q', lambdaAssignment env i.name (fun m o => Analyse.call env f body fuel n m o none) e'.unparen = .ok q' := by
        intro e' hv
        have hm := (hval e'.unparen).2 ⟨e', hv, rfl⟩
        have : ∀ (es : List Node) {p : BodyPlan}, lambdaAssignments env i.name (fun m o => Analyse.call env f body fuel n m o none) es = .ok p →
            ∀ e ∈ es, ∃ q', lambdaAssignment env i.name (fun m o => Analyse.call env f body fuel n m o none) e = .ok q' := by
          intro es
          induction es with
          | nil => simp
          | cons a as ih =>
            intro p hp e he
            simp only [lambdaAssignments, bind, Except.bind] at hp
            split at hp
            · cases hp
            · rename_i q₁ hq₁
              split at hp
              · cases hp
              · rename_i q₂ hq₂
                rcases List.mem_cons.1 he with rfl | he
                · exact ⟨_, hq₁⟩
                · exact ih hq₂ e he
        exact this _ hq _ hm
      -- its reports
      have back : ∀ e', Value env f body none i e' → ∀ callee,
          ((∃ j, e'.unparen = .ident j ∧ callee = env.uses j.id) ∨
            ∃ id y sel, e'.unparen = .selector id y sel ∧ callee = (match env.selection id with | some (_, o) => some o | none => env.uses sel.id)) →
          ((∃ o position, callee = some o ∧ env.facts.ctor o = some position ∧ d = ⟨e'.unparen.id, .constructorAsValue o⟩) ∨
            ((∀ o, callee = some o → env.facts.codes o = none) ∧ NameProblem env e'.unparen d)) →
          ∃ e ∈ t.expressions, ∃ q', lambdaAssignment env i.name (fun m o => Analyse.call env f body fuel n m o none) e = .ok q' ∧ Reports q' d := by
        intro e' hv callee hc hp
        obtain ⟨q', hq'⟩ := one e' hv
        refine ⟨e'.unparen, (hval _).2 ⟨e', hv, rfl⟩, q', hq', ?_⟩
        have hobj : ∀ j o, e'.unparen.unparen = .ident j → j.obj = some o → (∃ g, (env.object o).decl = .funcDecl g) ∨ (env.object o).decl = .typeSpec :=
          fun j o hj ho => hfun e' j o hv (by rwa [Node.unparen_unparen] at hj) ho
        unfold lambdaAssignment at hq'
        rw [Node.unparen_unparen] at hq'
        rcases hc with ⟨j, hj, rfl⟩ | ⟨id, y, sel, hj, rfl⟩
        · simp only [hj] at hq'; rw [← hj] at hq'; exact (value_reports hq' hobj).2 hp
        · simp only [hj] at hq'; rw [← hj] at hq'; exact (value_reports hq' hobj).2 hp
      intro h
      cases h with
      | escapes h => exact .inl (List.mem_append_left _ (List.mem_map.2 ⟨_, (hout _).2 h, rfl⟩))
      | destructured h1 h2 => exact .inl (List.mem_append_right _ (List.mem_map.2 ⟨_, (hdes _).2 ⟨_, h1, h2⟩, rfl⟩))
      | unsupported hv h1 h2 h3 =>
        rename_i e'
        refine .inr ⟨e'.unparen, (hval _).2 ⟨e', hv, rfl⟩, .report ⟨e'.unparen.id, .lambdaUnsupported i.name⟩, ?_, by simp⟩
        unfold lambdaAssignment
        rw [Node.unparen_unparen]
        split
        · exact absurd ‹_› (h1 _ _ _ _)
        · exact absurd ‹_› (h2 _)
        · exact absurd ‹_› (h3 _ _ _)
        · rfl
      | constructor hv hd hc =>
        rename_i e' o k
        refine .inr ?_
        rcases (hden e' o).1 hd with ⟨j, hj, h⟩ | ⟨id, y, sel, hj, h⟩
        · exact back e' hv _ (.inl ⟨j, hj, rfl⟩) (.inl ⟨o, k, h, hc, rfl⟩)
        · exact back e' hv _ (.inr ⟨id, y, sel, hj, rfl⟩) (.inl ⟨o, k, h, hc, rfl⟩)
      | named hv hno hk hp =>
        rename_i e'
        refine .inr ?_
        rcases hk with ⟨j, hj⟩ | ⟨id, y, sel, hj⟩
        · exact back e' hv _ (.inl ⟨j, hj, rfl⟩) (.inr ⟨fun o h => hno o ((hden e' o).2 (.inl ⟨j, hj, h⟩)), hp⟩)
        · exact back e' hv _ (.inr ⟨id, y, sel, hj, rfl⟩)
            (.inr ⟨fun o h => hno o ((hden e' o).2 (.inr ⟨id, y, sel, hj, h⟩)), hp⟩)

/-- The reports of a call. -/
theorem call_reports (ascii : PrintsAscii env.isPrint) (scope : LitsBeforeUses env body) (hb : BodyOk body) (hfuel : enough env ≤ fuel)
    {id : NodeId} {fn : Node} {args : List Node}
    (hclean : ∀ i, fn.unparen = .ident i → CleanRoot env body i)
    (hfun : ∀ i e j o, fn.unparen = .ident i → Value env f body none i e → e.unparen = .ident j → j.obj = some o →
      (∃ g, (env.object o).decl = .funcDecl g) ∨ (env.object o).decl = .typeSpec)
    {p : BodyPlan} (h : callExpression env f body fuel id fn args = .ok p) (hp : ¬ Panics p) {d : Diag} :
    Reports p d ↔ CallProblem env f body id fn args d := by
  unfold callExpression at h
  revert h
  generalize hn : fuel = n
  intro h
  have hn' : enough env ≤ n := hn ▸ hfuel
  cases hc0 : n with
  | zero => rw [hc0] at h; simp [Analyse.call] at h
  | succ k =>
  have h' : functionCall env f (allAssignedLambdas env f body n (fun m o => Analyse.call env f body n k m o none)) fn (env.callee id)
      (some (id, args)) = .ok p := by
    have : Analyse.call env f body n n fn (env.callee id) (some (id, args)) = Analyse.call env f body n (k + 1) fn (env.callee id) (some (id, args)) := by
      rw [← hc0]
    rw [this] at h
    exact h
  clear h
  unfold functionCall lift at h'
  simp only [Option.map_some] at h'
  cases hctor : extractErrorCodeFromConstructorCall env f fn.id (env.callee id) (some args) with
  | error e =>
    obtain ⟨loc, rfl⟩ := constructorCall_error_panic hctor
    rw [hctor] at h'
    cases h'
    exact absurd panics_panic hp
  | ok ctor =>
    rw [hctor] at h'
    dsimp only at h'
    have hcd : d ∈ ctor.2 ↔ ∃ o position a, env.callee id = some o ∧ env.facts.ctor o = some position ∧ args[position]? = some a ∧
        CodeProblem env f a d := by
      unfold extractErrorCodeFromConstructorCall at hctor
      cases hcal : env.callee id with
      | none => simp only [hcal] at hctor; cases hctor; simp
      | some o =>
        simp only [hcal] at hctor
        cases hfc : env.facts.ctor o with
        | none => simp only [hfc] at hctor; cases hctor; simp [hfc]
        | some position =>
          simp only [hfc] at hctor
          cases ha : args[position]? with
          | none => simp only [ha] at hctor; cases hctor
          | some a =>
            simp only [ha] at hctor
            cases hctor
            rw [code_reports ascii]
            simp [hfc, ha]
    have hcodes : ((env.callee id).bind env.facts.codes = none ∧
        (if (some (id, args)).isSome = true ∧ env.callee id = none then extractErrorCodesFromTypeConversion env fn else []) = []) ↔ NoCodes env id fn := by
      unfold NoCodes extractErrorCodesFromTypeConversion
      cases env.callee id with
      | some o => simp
      | none =>
        cases ht : env.getErrorTypeForError (env.typeOf fn.id) with
        | none => simp
        | some t =>
          simp only [Option.bind_none, Option.isSome_some, and_self, if_true, true_and, reduceCtorEq, false_implies, implies_true, Option.some.injEq,
            forall_eq', forall_const]
          constructor
          · intro h
            refine List.eq_nil_iff_forall_not_mem.2 fun c hc => ?_
            have := CodeSet.mem_ofSlice.2 hc
            rw [h] at this; cases this
          · intro h; rw [h]; rfl
    have known : ¬ NoCodes env id fn → (CallProblem env f body id fn args d ↔ d ∈ ctor.2) := by
      intro hno
      rw [hcd]
      constructor
      · intro h
        cases h with
        | argument h1 h2 h3 h4 => exact ⟨_, _, _, h1, h2, h3, h4⟩
        | named h => exact absurd h hno
        | conversion h => exact absurd h hno
        | viaVariable h => exact absurd h hno
      · rintro ⟨o, position, a, h1, h2, h3, h4⟩; exact .argument h1 h2 h3 h4
    split at h'
    · rename_i codes hk
      cases h'
      rw [known (by rw [← hcodes, hk]; simp)]
      simp
    · rename_i hk
      generalize hcc : (if (some (id, args)).isSome = true ∧ env.callee id = none then extractErrorCodesFromTypeConversion env fn else []) = cc at h' hcodes
      split at h'
      · rename_i hne
        cases h'
        rw [known (by rw [← hcodes]; exact fun h => hne h.2)]
        simp
      · rename_i hne
        simp only [ne_eq, Classical.not_not] at hne
        have hno : NoCodes env id fn := hcodes.1 ⟨hk, hne⟩
        have unknown : CallProblem env f body id fn args d ↔ d ∈ ctor.2 ∨ NameProblem env fn d ∨
            (∃ i o, fn.unparen = .ident i ∧ i.obj = some o ∧ (env.object o).decl = .typeSpec ∧ LiteralProblem env f (.call id fn args) d) ∨
            (∃ i o, fn.unparen = .ident i ∧ i.obj = some o ∧ (∀ g, (env.object o).decl ≠ .funcDecl g) ∧ (env.object o).decl ≠ .typeSpec ∧
              VariableProblem env f body i d) := by
          rw [hcd]
          constructor
          · intro h
            cases h with
            | argument h1 h2 h3 h4 => exact .inl ⟨_, _, _, h1, h2, h3, h4⟩
            | named _ h => exact .inr (.inl h)
            | conversion _ h1 h2 h3 h4 => exact .inr (.inr (.inl ⟨_, _, h1, h2, h3, h4⟩))
            | viaVariable _ h1 h2 h3 h4 h5 => exact .inr (.inr (.inr ⟨_, _, h1, h2, h3, h4, h5⟩))
          · rintro (⟨o, position, a, h1, h2, h3, h4⟩ | h | ⟨i, o, h1, h2, h3, h4⟩ | ⟨i, o, h1, h2, h3, h4, h5⟩)
            · exact .argument h1 h2 h3 h4
            · exact .named hno h
            · exact .conversion hno h1 h2 h3 h4
            · exact .viaVariable hno h1 h2 h3 h4 h5
        rw [unknown]
        simp only [bind, Except.bind] at h'
        split at h'
        · cases h'
        · rename_i r hr
          -- names
          have plain : (∀ i o, fn.unparen = .ident i → i.obj = some o → ∃ g, (env.object o).decl = .funcDecl g) →
              (((∃ p, r = .inl p ∧ Reports p d) ∨ (r = .inr none ∧ d = ⟨fn.id, .calleeUndeclared⟩)) ↔
              NameProblem env fn d ∨
              (∃ i o, fn.unparen = .ident i ∧ i.obj = some o ∧ (env.object o).decl = .typeSpec ∧ LiteralProblem env f (.call id fn args) d) ∨
              (∃ i o, fn.unparen = .ident i ∧ i.obj = some o ∧ (∀ g, (env.object o).decl ≠ .funcDecl g) ∧ (env.object o).decl ≠ .typeSpec ∧
                VariableProblem env f body i d)) := by
            intro hall
            rw [called_reports hr fun i o hi ho => .inl (hall i o hi ho)]
            constructor
            · exact .inl
            · rintro (h | ⟨i, o, h1, h2, h3, h4⟩ | ⟨i, o, h1, h2, h3, h4⟩)
              · exact h
              · obtain ⟨g, hg⟩ := hall i o h1 h2; rw [hg] at h3; cases h3
              · obtain ⟨g, hg⟩ := hall i o h1 h2; exact absurd hg (h3 g)
          have rest : ((∃ p, r = .inl p ∧ Reports p d) ∨ (r = .inr none ∧ d = ⟨fn.id, .calleeUndeclared⟩)) ↔
              NameProblem env fn d ∨
              (∃ i o, fn.unparen = .ident i ∧ i.obj = some o ∧ (env.object o).decl = .typeSpec ∧ LiteralProblem env f (.call id fn args) d) ∨
              (∃ i o, fn.unparen = .ident i ∧ i.obj = some o ∧ (∀ g, (env.object o).decl ≠ .funcDecl g) ∧ (env.object o).decl ≠ .typeSpec ∧
                VariableProblem env f body i d) := by
            by_cases hid : ∃ i o, fn.unparen = .ident i ∧ i.obj = some o ∧ ∀ g, (env.object o).decl ≠ .funcDecl g
            · obtain ⟨i, o, hi, ho, hg⟩ := hid
              have hname : ¬ NameProblem env fn d := by
                intro hn
                cases hn with
                | dotImport h1 h2 => rw [hi] at h1; cases h1; rw [ho] at h2; cases h2
                | foreign h1 => rw [hi] at h1; cases h1
                | method h1 => rw [hi] at h1; cases h1
                | unnamed h1 => exact absurd hi (h1 _)
              simp only [hname, false_or]
              unfold calledFunction at hr
              simp only [hi, ho] at hr
              split at hr
              · rename_i g hg'; exact absurd hg' (hg g)
              · rename_i ht
                cases hr
                simp only [Sum.inl.injEq, exists_eq_left', reports_founds, reduceCtorEq, false_and, or_false, literal_reports ascii]
                constructor
                · intro h; exact .inl ⟨i, o, hi, ho, ht, h⟩
                · rintro (⟨i', o', h1, h2, h3, h4⟩ | ⟨i', o', h1, h2, h3, h4, h5⟩)
                  · exact h4
                  · rw [hi] at h1; cases h1; rw [ho] at h2; cases h2; exact absurd ht h4
              · rename_i ht
                simp only [bind, Except.bind] at hr
                split at hr
                · cases hr
                · rename_i q hq
                  simp only [pure, Except.pure] at hr
                  cases hr
                  subst hn
                  have := variable_reports (d := d) scope ho (hclean i hi) (fun e j o => hfun i e j o hi) hb hfuel hq
                  simp only [Sum.inl.injEq, exists_eq_left', reduceCtorEq, false_and, or_false, this]
                  constructor
                  · intro h; exact .inr ⟨i, o, hi, ho, hg, ht, h⟩
                  · rintro (⟨i', o', h1, h2, h3, h4⟩ | ⟨i', o', h1, h2, h3, h4, h5⟩)
                    · rw [hi] at h1; cases h1; rw [ho] at h2; cases h2; exact absurd h3 ht
                    · rw [hi] at h1; cases h1; exact h5
            · refine plain fun i o hi ho => ?_
              apply Classical.byContradiction
              intro hc
              exact hid ⟨i, o, hi, ho, fun g hg => hc ⟨g, hg⟩⟩
          rw [← rest]
          split at h'
          · cases h'; simp
          · cases h'; simp
          · cases h'; simp

/-! ## Expressions and assignments -/

/-- The reports of an expression by itself. -/
theorem terminal_reports (ascii : PrintsAscii env.isPrint) {e : Node} (hno : ∀ id fn args, e.unparen ≠ .call id fn args) {q : BodyPlan}
    (hq : terminal env f body fuel e = .ok q) {d : Diag} : Reports q d ↔ ExprProblem env f e d := by
  unfold terminal at hq
  cases he : e.unparen with
  | call id fn args => exact absurd he (hno _ _ _)
  | unary id isAnd x =>
    simp only [he] at hq
    by_cases hc : isAnd = true ∧ env.implError (env.typeOf id) = true
    · obtain ⟨rfl, hc⟩ := hc
      simp only [hc, Bool.and_self, if_true] at hq
      cases hx : x.unparen with
      | ident i =>
        simp only [hx] at hq
        cases hq
        simp only [reports_codes, false_iff]
        intro h
        cases h with
        | operator h1 h2 => rw [he] at h1; cases h1; exact h2 ⟨rfl, hc⟩
        | address h1 h2 h3 => rw [he] at h1; cases h1; exact h3 i hx
        | literal h1 => rw [he] at h1; cases h1
        | basic h1 => rw [he] at h1; cases h1
        | typeSwitch h1 => rw [he] at h1; cases h1
        | typeAssert h1 => rw [he] at h1; cases h1
        | index h1 => rw [he] at h1; cases h1
        | other h1 => exact h1 (by rw [he]; simp [Understood])
      | _ =>
        simp only [hx] at hq
        cases hq
        rw [reports_founds, literal_reports ascii]
        constructor
        · exact .address he hc (by simp [hx])
        · intro h
          cases h with
          | operator h1 h2 => rw [he] at h1; cases h1; exact absurd ⟨rfl, hc⟩ h2
          | address h1 h2 h3 h4 => rw [he] at h1; cases h1; exact h4
          | literal h1 => rw [he] at h1; cases h1
          | basic h1 => rw [he] at h1; cases h1
          | typeSwitch h1 => rw [he] at h1; cases h1
          | typeAssert h1 => rw [he] at h1; cases h1
          | index h1 => rw [he] at h1; cases h1
          | other h1 => exact absurd (by rw [he]; simp [Understood]) h1
    · rw [if_neg (by simpa using hc)] at hq
      cases hq
      rw [reports_report]
      constructor
      · rintro rfl; exact .operator he hc
      · intro h
        cases h with
        | operator h1 h2 => rw [he] at h1; cases h1; rfl
        | address h1 h2 h3 h4 => rw [he] at h1; cases h1; exact absurd ⟨rfl, h2⟩ hc
        | literal h1 => rw [he] at h1; cases h1
        | basic h1 => rw [he] at h1; cases h1
        | typeSwitch h1 => rw [he] at h1; cases h1
        | typeAssert h1 => rw [he] at h1; cases h1
        | index h1 => rw [he] at h1; cases h1
        | other h1 => exact absurd (by rw [he]; simp [Understood]) h1
  | typeAssert id x t =>
    cases t with
    | none =>
      simp only [he] at hq
      cases hq
      rw [reports_report]
      constructor
      · rintro rfl; exact .typeSwitch he
      · intro h
        cases h with
        | other h1 => exact absurd (by rw [he]; simp [Understood]) h1
        | typeSwitch h1 => rw [he] at h1; cases h1; rfl
        | operator h1 | address h1 | literal h1 | basic h1 | typeAssert h1 | index h1 => rw [he] at h1; cases h1
    | some t =>
      simp only [he] at hq
      cases hq
      rw [reports_report]
      constructor
      · rintro rfl; exact .typeAssert he
      · intro h
        cases h with
        | other h1 => exact absurd (by rw [he]; simp [Understood]) h1
        | typeAssert h1 => rw [he] at h1; cases h1; rfl
        | operator h1 | address h1 | literal h1 | basic h1 | typeSwitch h1 | index h1 => rw [he] at h1; cases h1
  | compositeLit id elts =>
    simp only [he] at hq
    cases hq
    rw [reports_founds, literal_reports ascii]
    constructor
    · exact .literal he
    · intro h
      cases h with
      | other h1 => exact absurd (by rw [he]; simp [Understood]) h1
      | literal h1 h2 => rw [he] at h1; cases h1; exact h2
      | operator h1 | address h1 | typeAssert h1 | basic h1 | typeSwitch h1 | index h1 => rw [he] at h1; cases h1
  | basicLit id =>
    simp only [he] at hq
    cases hq
    rw [reports_founds, literal_reports ascii]
    constructor
    · exact .basic he
    · intro h
      cases h with
      | other h1 => exact absurd (by rw [he]; simp [Understood]) h1
      | basic h1 h2 => rw [he] at h1; cases h1; exact h2
      | operator h1 | address h1 | typeAssert h1 | literal h1 | typeSwitch h1 | index h1 => rw [he] at h1; cases h1
  | index id x y =>
    simp only [he] at hq
    cases hq
    rw [reports_report]
    constructor
    · rintro rfl; exact .index he
    · intro h
      cases h with
      | other h1 => exact absurd (by rw [he]; simp [Understood]) h1
      | index h1 => rw [he] at h1; cases h1; rfl
      | operator h1 | address h1 | literal h1 | basic h1 | typeSwitch h1 | typeAssert h1 => rw [he] at h1; cases h1
  | ident i =>
    simp only [he] at hq
    cases hq
    simp only [reports_codes, false_iff]
    intro h
    cases h with
    | other h1 => exact absurd (by rw [he]; simp [Understood]) h1
    | operator h1 | address h1 | literal h1 | basic h1 | typeSwitch h1 | typeAssert h1 | index h1 => rw [he] at h1; cases h1
  | selector id x sel =>
    simp only [he] at hq
    cases hq
    simp only [reports_codes, false_iff]
    intro h
    cases h with
    | other h1 => exact absurd (by rw [he]; simp [Understood]) h1
    | operator h1 | address h1 | literal h1 | basic h1 | typeSwitch h1 | typeAssert h1 | index h1 => rw [he] at h1; cases h1
  | _ =>
    simp only [he] at hq
    cases hq
    rw [reports_report, ← he]
    constructor
    · rintro rfl; exact .other (by rw [he]; simp [Understood])
    · intro h
      cases h with
      | other h1 => rfl
      | operator h1 | address h1 | literal h1 | basic h1 | typeSwitch h1 | typeAssert h1 | index h1 => rw [he] at h1; cases h1

/-- Without a code field there are no reports. -/
theorem fieldAssignment_quiet {x : ObjId} (len : Nat) (rhs : List Node) {d : Diag} : ∀ (ls : List Node) (et : Option ErrorType) (n : Nat),
    (∀ k i, FieldOf x ls k i → ∀ t, env.getErrorTypeForError (env.typeOf i.id) = some t → t.field = none) →
    (∀ t, et = some t → t.field = none) → ¬ Reports (fieldAssignment env f x len rhs et n ls) d
  | [], et, n, _, _ => by simp [fieldAssignment]
  | m :: ms, et, n, hty, het => by
    have hty' : ∀ k i, FieldOf x ms k i → ∀ t, env.getErrorTypeForError (env.typeOf i.id) = some t → t.field = none :=
      fun k i h => hty (k + 1) i (fieldOf_succ.2 h)
    have ih := fun et het => fieldAssignment_quiet (x := x) len rhs (d := d) ms et (n + 1) hty' het
    simp only [fieldAssignment]
    split
    · exact ih et het
    · rename_i i sel hm
      split
      · exact ih et het
      · rename_i ho
        simp only [ne_eq, Classical.not_not] at ho
        split
        · exact ih none (by simp)
        · rename_i t ht
          have hf : t.field = none := by
            unfold resolveType at ht
            split at ht
            · cases ht; exact het _ rfl
            · exact hty 0 i (fieldTarget_of.2 ⟨⟨sel, hm⟩, ho⟩) t ht
          split
          · split
            · exact ih (some t) (fun t' h => by cases h; exact hf)
            · simp
          · rename_i h; rw [hf] at h; cases h

theorem fieldAssignments_quiet {x : ObjId} {d : Diag} : ∀ ns : List Node,
    (∀ id lhs rhs k i, .assign id lhs rhs ∈ ns → FieldOf x lhs k i → ∀ t, env.getErrorTypeForError (env.typeOf i.id) = some t → t.field = none) →
    ¬ Reports (fieldAssignments env f x ns) d
  | [], _ => by simp [fieldAssignments]
  | n :: ns, h => by
    have ih := fieldAssignments_quiet (x := x) (d := d) ns fun id lhs rhs k i hm => h id lhs rhs k i (List.mem_cons_of_mem _ hm)
    cases n with
    | assign id lhs rhs =>
      simp only [fieldAssignments, reports_union, ih, or_false]
      exact fieldAssignment_quiet _ _ _ _ _ (fun k i hf => h id lhs rhs k i (by simp) hf) (by simp)
    | _ => exact ih

/-- The reports of the assignments to the code field of a variable. -/
theorem fields_reports (ascii : PrintsAscii env.isPrint) (hb : BodyOk body) {x : ObjId}
    (one : ∀ i i', FieldAssigned body x i → FieldAssigned body x i' → env.typeOf i.id = env.typeOf i'.id) {d : Diag} :
    Reports (fieldAssignments env f x (Node.inspectList intoFields body)) d ↔
      ∃ t fd e, ∃ i : Ident, i.obj = some x ∧ env.getErrorTypeForError (env.typeOf i.id) = some t ∧ t.field = some fd ∧
        ((AssignsField body i fd.name e ∧ CodeProblem env f e d) ∨ (DestructuresField body i fd.name e ∧ d = ⟨e.id, .notConstant⟩)) := by
  have hne : ∀ id lhs rhs, .assign id lhs rhs ∈ Node.inspectList intoFields body → lhs.length ≠ rhs.length → rhs ≠ [] := by
    intro id lhs rhs hin hlen hnil
    subst hnil
    exact hb.assigns id lhs [] (Props.ErrorTypes.occurs_of_within ((mem_inspectList _ _ _).1 hin)) (fun h => hlen (by simp [h])) rfl
  by_cases hex : ∃ id lhs rhs k i t fd, .assign id lhs rhs ∈ Node.inspectList intoFields body ∧ FieldOf x lhs k i ∧
      env.getErrorTypeForError (env.typeOf i.id) = some t ∧ t.field = some fd
  · obtain ⟨id₀, lhs₀, rhs₀, k₀, i₀, t, fd, hin₀, hf₀, ht, hfd⟩ := hex
    rw [intoFields_eq, mem_inspectList] at hin₀
    have same : ∀ id lhs rhs k i, WithinList outsideAssignments (.assign id lhs rhs) body → FieldOf x lhs k i →
        env.getErrorTypeForError (env.typeOf i.id) = some t := fun id lhs rhs k i hw h => by
      rw [one i i₀ ⟨id, lhs, rhs, k, hw, h⟩ ⟨id₀, lhs₀, rhs₀, k₀, hin₀, hf₀⟩]; exact ht
    have hty : FieldTypes env (Node.inspectList intoFields body) x t := by
      intro id lhs rhs hw sid i sel hm ho
      rw [intoFields_eq, mem_inspectList] at hw
      obtain ⟨k, hk⟩ := List.getElem?_of_mem hm
      exact same id lhs rhs k i hw ⟨sid, sel, hk, ho⟩
    unfold Reports
    rw [fieldAssignments_leaves hfd (by simp) _ hne hty]
    constructor
    · rintro (⟨hm, hlen, ⟨sid, i, sel, h1, h2, h3⟩, he, hl⟩ | ⟨hm, hlen, ⟨sid, i, sel, h1, h2, h3⟩, he, hl⟩)
      · rename_i id lhs rhs k e
        rw [intoFields_eq, mem_inspectList] at hm
        exact ⟨t, fd, e, i, h2, same id lhs rhs k i hm ⟨sid, sel, h1, h2⟩, hfd, .inl ⟨⟨id, lhs, rhs, k, sid, sel, hm, hlen, h1, h3, he⟩,
          (code_reports ascii).1 (reports_foundCode.1 hl)⟩⟩
      · rename_i id lhs rhs k e
        rw [intoFields_eq, mem_inspectList] at hm
        exact ⟨t, fd, e, i, h2, same id lhs rhs k i hm ⟨sid, sel, h1, h2⟩, hfd, .inr ⟨⟨id, lhs, rhs, k, sid, sel, hm, hlen, h1, h3, he⟩,
          by cases hl; rfl⟩⟩
    · rintro ⟨t', fd', e, i, ho, ht', hfd', ⟨⟨id, lhs, rhs, k, sid, sel, hm, hlen, h1, h3, he⟩, hp⟩ |
        ⟨⟨id, lhs, rhs, k, sid, sel, hm, hlen, h1, h3, he⟩, rfl⟩⟩
      · rw [same id lhs rhs k i hm ⟨sid, sel, h1, ho⟩] at ht'; cases ht'; rw [hfd] at hfd'; cases hfd'
        exact .assigned (by rw [intoFields_eq, mem_inspectList]; exact hm) hlen ⟨sid, i, sel, h1, ho, h3⟩ he
          (reports_foundCode.2 ((code_reports ascii).2 hp))
      · rw [same id lhs rhs k i hm ⟨sid, sel, h1, ho⟩] at ht'; cases ht'; rw [hfd] at hfd'; cases hfd'
        exact .destructured (by rw [intoFields_eq, mem_inspectList]; exact hm) hlen ⟨sid, i, sel, h1, ho, h3⟩ he rfl
  · have hq := fieldAssignments_quiet (env := env) (f := f) (x := x) (d := d) (Node.inspectList intoFields body) fun id lhs rhs k i hm hf t ht => by
      cases hfd : t.field with
      | none => rfl
      | some fd => exact absurd ⟨id, lhs, rhs, k, i, t, fd, hm, hf, ht, hfd⟩ hex
    simp only [hq, false_iff]
    rintro ⟨t', fd', e, i, ho, ht', hfd', ⟨⟨id, lhs, rhs, k, sid, sel, hm, hlen, h1, h3, he⟩, hp⟩ |
        ⟨⟨id, lhs, rhs, k, sid, sel, hm, hlen, h1, h3, he⟩, rfl⟩⟩
    all_goals exact hex ⟨id, lhs, rhs, k, i, t', fd', by rw [intoFields_eq, mem_inspectList]; exact hm, ⟨sid, sel, h1, ho⟩, ht', hfd'⟩

/-! ## The error code parameter -/

theorem codesOfExpressions_reports (ascii : PrintsAscii env.isPrint) {d : Diag} : ∀ es : List Node,
    d ∈ (codesOfExpressions env f es).2 ↔ ∃ e ∈ es, CodeProblem env f e d
  | [] => by simp [codesOfExpressions]
  | e :: es => by
    have ih := codesOfExpressions_reports ascii (d := d) es
    simp only [codesOfExpressions, List.mem_append, List.mem_cons, exists_eq_or_imp, ih, code_reports ascii]

theorem codeParam_iff {i : Ident} : CodeParam env f i ↔
    ∃ position, importErrorConstructorFact env f = some position ∧ getParamIdent (env.func f).type position = some i := by
  unfold CodeParam importErrorConstructorFact
  constructor
  · rintro ⟨k, h1, h2, h3⟩
    refine ⟨k, ?_, by rw [parameter_at, h3]; rfl⟩
    rw [if_pos (by cases h : (env.func f).declName with | none => exact absurd h h1 | some _ => rfl)]; exact h2
  · rintro ⟨k, h1, h2⟩
    split at h1
    · rename_i hd
      refine ⟨k, fun h => by simp [h] at hd, h1, ?_⟩
      rw [parameter_at] at h2
      cases h : (slots (env.func f).type.params)[k]? with
      | none => rw [h] at h2; cases h2
      | some o => rw [h] at h2; exact congrArg some h2
    · cases h1

/-- The reports about the error code parameter. -/
theorem param_reports (ascii : PrintsAscii env.isPrint) (scope : LitsBeforeUses env body)
    (clean : ∀ i, CodeParam env f i → CleanRoot env body i) {x : Founds}
    (hx : extractErrorCodesFromConstructor env f body fuel = .ok x) {d : Diag} :
    d ∈ x.2 ↔ ∃ i, CodeParam env f i ∧ ((∃ j, Escapes env f body i.obj i j ∧ d = ⟨j.id, .paramOutOfScope⟩) ∨
      (∃ y d', Tracked env (env.func f) body i.obj [] i y ∧ Destructured env body y d' ∧ d = ⟨d'.source.id, .paramDestructured d'.target.name⟩) ∨
      (∃ e, Value env f body i.obj i e ∧ CodeProblem env f e.unparen d)) := by
  unfold extractErrorCodesFromConstructor at hx
  cases hpos : importErrorConstructorFact env f with
  | none =>
    simp only [hpos] at hx
    cases hx
    simp only [List.not_mem_nil, false_iff]
    rintro ⟨i, hc, -⟩
    obtain ⟨k, h1, -⟩ := codeParam_iff.1 hc
    rw [hpos] at h1; cases h1
  | some position =>
    simp only [hpos] at hx
    cases hi : getParamIdent (env.func f).type position with
    | none => simp only [hi] at hx; cases hx
    | some i =>
      simp only [hi] at hx
      cases ht : run env (env.func f) body i.obj fuel [] i with
      | error e => simp only [ht] at hx; cases hx
      | ok t =>
        simp only [ht, Except.ok.injEq] at hx
        subst hx
        have hc : CodeParam env f i := codeParam_iff.2 ⟨position, hpos, hi⟩
        have uniq : ∀ j, CodeParam env f j → j = i := fun j hj => by
          obtain ⟨k, h1, h2⟩ := codeParam_iff.1 hj
          rw [hpos] at h1; cases h1; rw [hi] at h2; cases h2; rfl
        have key : (∃ j, CodeParam env f j ∧ ((∃ k, Escapes env f body j.obj j k ∧ d = ⟨k.id, .paramOutOfScope⟩) ∨
            (∃ y d', Tracked env (env.func f) body j.obj [] j y ∧ Destructured env body y d' ∧ d = ⟨d'.source.id, .paramDestructured d'.target.name⟩) ∨
            (∃ e, Value env f body j.obj j e ∧ CodeProblem env f e.unparen d))) ↔
            ((∃ k, Escapes env f body i.obj i k ∧ d = ⟨k.id, .paramOutOfScope⟩) ∨
            (∃ y d', Tracked env (env.func f) body i.obj [] i y ∧ Destructured env body y d' ∧ d = ⟨d'.source.id, .paramDestructured d'.target.name⟩) ∨
            (∃ e, Value env f body i.obj i e ∧ CodeProblem env f e.unparen d)) :=
          ⟨fun ⟨j, hj, h⟩ => by cases uniq j hj; exact h, fun h => ⟨i, hc, h⟩⟩
        rw [key]
        show d ∈ (_ ++ _ ++ (codesOfExpressions env f t.expressions).2) ↔ _
        rw [List.mem_append, List.mem_append, codesOfExpressions_reports ascii, or_assoc]
        cases ho : i.obj with
        | none =>
          rw [ho] at ht
          have := run_noObj ho ht
          subst this
          have htr : ∀ y, ¬ Tracked env (env.func f) body none [] i y := by
            intro y h
            induction h with
            | start h => rw [ho] at h; cases h
            | step _ _ _ _ _ _ ih => exact ih
          have hv : ∀ e, ¬ Value env f body none i e := fun e ⟨y, h, _⟩ => htr y h
          have hl : Local env (env.func f) body none i ↔ i.name = b!"nil" := by
            unfold Local Inside
            simp [ho]
          have hesc : ∀ j, Escapes env f body none i j ↔ i.name ≠ b!"nil" ∧ j = i := by
            intro j
            unfold Escapes
            constructor
            · rintro ⟨h, rfl | ⟨_, _, _, h', _⟩⟩
              · exact ⟨fun hn => h (hl.2 hn), rfl⟩
              · exact absurd h' (htr _)
            · rintro ⟨h, rfl⟩; exact ⟨fun h' => h (hl.1 h'), .inl rfl⟩
          simp only [hesc, htr, hv, false_and, exists_false, or_false, List.map_nil, List.not_mem_nil]
          by_cases hn : i.name = b!"nil"
          · simp [hn]
          · simp [hn]
        | some o =>
          rw [ho] at ht
          obtain ⟨-, hexp, hdes, hout⟩ := run_spec scope ho (clean i hc) ht
          refine or_congr ?_ (or_congr ?_ ?_)
          · rw [List.mem_map]
            constructor
            · rintro ⟨j, hj, rfl⟩; exact ⟨j, (hout j).1 hj, rfl⟩
            · rintro ⟨j, hj, rfl⟩; exact ⟨j, (hout j).2 hj, rfl⟩
          · rw [List.mem_map]
            constructor
            · rintro ⟨d', hd', rfl⟩; obtain ⟨y, h1, h2⟩ := (hdes d').1 hd'; exact ⟨y, d', h1, h2, rfl⟩
            · rintro ⟨y, d', h1, h2, rfl⟩; exact ⟨d', (hdes d').2 ⟨y, h1, h2⟩, rfl⟩
          · constructor
            · rintro ⟨e, he, h⟩
              obtain ⟨y, e', h1, h2, h3, rfl⟩ := (hexp e).1 he
              exact ⟨e', ⟨y, h1, h2, h3⟩, h⟩
            · rintro ⟨e, ⟨y, h1, h2, h3⟩, h⟩
              exact ⟨e.unparen, (hexp _).2 ⟨y, e, h1, h2, h3, rfl⟩, h⟩

/-! ## A body -/

/-- The reports about a function body, exactly. -/
theorem body_reports (h : Regular env f body) (ty : Typed env f body) (ascii : PrintsAscii env.isPrint) (hf : bound env ≤ fuel)
    (calm : (plan env fuel f).panics = false) {d : Diag} : d ∈ (plan env fuel f).reports ↔ Problem env f body d := by
  obtain ⟨x, hx⟩ := h.constructor hf
  have hl := h.leaves hf hx (l := .report d) (by simp)
  have hbe := bound_enough hf
  have nopanic : ∀ q : BodyPlan, (∀ l ∈ q.leaves, l ≠ .codes [] → l ∈ (plan env fuel f).leaves) → ¬ Panics q := by
    rintro q hq ⟨loc, hm⟩
    have := (Plan.panics_iff (p := plan env fuel f)).2 ⟨loc, hq _ hm (by simp)⟩
    rw [calm] at this; cases this
  have callR : ∀ id fn args q, Props.Calls.ErrCall env f body id fn args → callExpression env f body fuel id fn args = .ok q →
      (Reports q d ↔ CallProblem env f body id fn args d) := by
    intro id fn args q hc hq
    exact call_reports ascii h.scope.before h.parsed hbe (fun i hi => ty.clean id fn args i hc hi)
      (fun i e j o hi => ty.functions id fn args i e j o hc hi) hq (nopanic q fun l hm hn => hc.leaves h hf hq hm hn)
  rw [Plan.mem_reports, hl]
  constructor
  · intro hb
    cases hb with
    | param hm =>
      obtain ⟨i, hc, ⟨j, h1, rfl⟩ | ⟨y, d', h1, h2, rfl⟩ | ⟨e, h1, h2⟩⟩ :=
        (param_reports ascii h.scope.before ty.param hx).1 (reports_founds.1 hm)
      · exact .paramEscapes hc h1
      · exact .paramDestructured hc h1 h2
      · exact .paramAssigned hc h1 h2
    | just hj =>
      cases hj with
      | empty h => cases h
      | @terminal e q he hq hm =>
        by_cases hc : ∃ id fn args, e.unparen = .call id fn args
        · obtain ⟨id, fn, args, hu⟩ := hc
          have hq' : callExpression env f body fuel id fn args = .ok q := by simpa [terminal, hu] using hq
          exact .call (.expr he hu) ((callR id fn args q (.expr he hu) hq').1 hm)
        · exact .expr he ((terminal_reports ascii (fun id fn args hu => hc ⟨id, fn, args, hu⟩) hq).1 hm)
      | @destruct y d' q hv hd hq hm =>
        unfold terminalD at hq
        split at hq
        · cases hq; simp [Plan.leaves] at hm
        · rename_i id fn args hu
          split at hq
          · rename_i n hn
            split at hq
            · rename_i hp
              cases hq
              have := reports_report.1 hm
              subst this
              exact .position hv hd hu hn hp
            · rename_i hp
              simp only [ne_eq, Classical.not_not] at hp
              have hc : Props.Calls.ErrCall env f body id fn args := .last hv hd hu hn hp
              exact .call hc ((callR id fn args q hc hq).1 hm)
          · cases hq; simp [Plan.leaves] at hm
        · cases hq; simp [Plan.leaves] at hm
      | outOfScope he hr hn hm => cases hm; exact .outside he hr hn
    | annot ha =>
      cases ha with
      | overwrite _ _ _ h => cases h
      | add _ _ _ h => cases h
      | diag h1 h2 h3 => cases h3; exact .annotation h1 h2
      | bare _ _ h => cases h
    | field hv hm =>
      obtain ⟨t, fd, e, i, h1, h2, h3, ⟨h4, h5⟩ | ⟨h4, rfl⟩⟩ := (fields_reports ascii h.parsed (ty.oneType _)).1 hm
      · exact .field hv h1 h2 h3 h4 h5
      · exact .fields hv h1 h2 h3 h4
  · intro hp
    cases hp with
    | annotation h1 h2 => exact .annot (.diag h1 h2 rfl)
    | @expr e _ he hp =>
      have hok : ∃ q, terminal env f body fuel e = .ok q := by
        unfold terminal
        split
        · exact callExpression_ok h.consts hf _ _ _
        all_goals first | exact ⟨_, rfl⟩ | skip
        split
        · split <;> exact ⟨_, rfl⟩
        · exact ⟨_, rfl⟩
      obtain ⟨q, hq⟩ := hok
      refine .just (.terminal he hq ((terminal_reports ascii ?_ hq).2 hp))
      intro id fn args hu
      cases hp with
      | other h1 => exact h1 (.inl ⟨_, _, _, hu⟩)
      | operator h1 | address h1 | literal h1 | basic h1 | typeSwitch h1 | typeAssert h1 | index h1 => rw [hu] at h1; cases h1
    | outside he hr hn => exact .just (.outOfScope he hr hn rfl)
    | @call id fn args _ hc hp =>
      obtain ⟨q, hq⟩ := callExpression_ok (f := f) h.consts hf id fn args
      exact hl.1 (hc.leaves h hf hq ((callR id fn args q hc hq).2 hp) (by simp))
    | @position y d' id fn args n hv hd hu hn hp =>
      refine .just (.destruct hv hd (q := .report ⟨d'.target.id, .nonLastResult⟩) ?_ (by simp [Plan.leaves]))
      unfold terminalD
      simp only [hu, hn, if_pos hp]
    | field hv h1 h2 h3 h4 h5 => exact .field hv ((fields_reports ascii h.parsed (ty.oneType _)).2 ⟨_, _, _, _, h1, h2, h3, .inl ⟨h4, h5⟩⟩)
    | fields hv h1 h2 h3 h4 => exact .field hv ((fields_reports ascii h.parsed (ty.oneType _)).2 ⟨_, _, _, _, h1, h2, h3, .inr ⟨h4, rfl⟩⟩)
    | paramEscapes hc h1 =>
      exact .param (reports_founds.2 ((param_reports ascii h.scope.before ty.param hx).2 ⟨_, hc, .inl ⟨_, h1, rfl⟩⟩))
    | paramDestructured hc h1 h2 =>
      exact .param (reports_founds.2 ((param_reports ascii h.scope.before ty.param hx).2 ⟨_, hc, .inr (.inl ⟨_, _, h1, h2, rfl⟩)⟩))
    | paramAssigned hc h1 h2 =>
      exact .param (reports_founds.2 ((param_reports ascii h.scope.before ty.param hx).2 ⟨_, hc, .inr (.inr ⟨_, h1, h2⟩)⟩))

end BodyReports
end Serum
