import Verif.Spec.BodyCodesSpec
import Verif.BodyReports
import Verif.Props.Literals

/-! # The codes of a function body, exactly -/

namespace Serum
namespace BodyCodes
open Flow Taint Analyse TypeReports BodyReports Props.TypeReports

variable {env : Env} {f : FnId} {body : List Node} {fuel : Nat} {ρ : FnId → GoString → Prop} {c : GoString}

/-- The code comes out of one of the steps. -/
def Gets (ρ : FnId → GoString → Prop) (p : BodyPlan) (c : GoString) : Prop := ∃ l ∈ p.leaves, l.Yields ρ c

@[simp] theorem gets_union {p q : BodyPlan} : Gets ρ (.union p q) c ↔ Gets ρ p c ∨ Gets ρ q c := by
  simp only [Gets, Plan.leaves, List.mem_append]
  constructor
  · rintro ⟨l, h | h, hc⟩
    · exact .inl ⟨l, h, hc⟩
    · exact .inr ⟨l, h, hc⟩
  · rintro (⟨l, h, hc⟩ | ⟨l, h, hc⟩)
    · exact ⟨l, .inl h, hc⟩
    · exact ⟨l, .inr h, hc⟩
@[simp] theorem gets_codes {s : CodeSet} : Gets ρ (.codes s) c ↔ c ∈ s := by simp [Gets, Plan.leaves, Plan.Yields]
@[simp] theorem gets_report {d : Diag} : ¬ Gets ρ (.report d) c := by simp [Gets, Plan.leaves, Plan.Yields]
@[simp] theorem gets_panic {l : String} : ¬ Gets ρ (.panic l) c := by simp [Gets, Plan.leaves, Plan.Yields]
@[simp] theorem gets_call {g : FnId} : Gets ρ (.call g) c ↔ ρ g c := by simp [Gets, Plan.leaves, Plan.Yields]
@[simp] theorem gets_visit {g : FnId} : Gets ρ (.visit g) c ↔ ρ g c := by simp [Gets, Plan.leaves, Plan.Yields]
@[simp] theorem gets_reports {ds : List Diag} : ¬ Gets ρ (reports ds) c := by
  rintro ⟨l, hl, hc⟩
  rw [reports_leaves] at hl
  rcases hl with rfl | ⟨d, -, rfl⟩
  · simp [Plan.Yields] at hc
  · exact hc
@[simp] theorem gets_founds {x : Founds} : Gets ρ (founds x) c ↔ c ∈ x.1 := by simp [founds]
@[simp] theorem gets_foundCode {x : Found} : Gets ρ (foundCode x) c ↔ x.1 = some c := by
  simp [foundCode, Option.mem_toList]

/-! ## Literals -/

theorem text_codes (ascii : PrintsAscii env.isPrint) {v : Node} : (extractErrorCodeFromStringExpression env f v).1 = some c ↔ Text env v c :=
  (Props.Literals.text_exact env ascii f v).1 c

theorem field_codes (ascii : PrintsAscii env.isPrint) {e : Node} {field : ErrorCodeField} :
    (extractFieldErrorCode env f e field).1 = some c ↔
      ∃ at_ id elts v, Opened e at_ (.compositeLit id elts) ∧ Initial field elts v ∧ Text env v c := by
  have split : (extractFieldErrorCode env f e field).1 = some c ↔ ∃ v, (findFieldInit field e).1 = some v ∧ Text env v c := by
    unfold extractFieldErrorCode
    rcases h : findFieldInit field e with ⟨v, ds⟩
    cases v with
    | none => simp
    | some v => simp [text_codes ascii]
  rw [split]
  constructor
  · rintro ⟨v, hv, h⟩
    obtain ⟨at_, m, ho, hp, hu⟩ := opened_core e .start
    rw [opened_eq ho] at hv
    by_cases hc : ∃ id elts, m = .compositeLit id elts
    · obtain ⟨id, elts, rfl⟩ := hc
      exact ⟨_, _, _, v, ho, (literal_initial.1 v).1 hv, h⟩
    · have hc : ∀ id elts, m ≠ .compositeLit id elts := fun id elts h => hc ⟨id, elts, h⟩
      rw [findInit_noLiteral hc hp hu] at hv
      cases hv
  · rintro ⟨at_, id, elts, v, ho, hi, h⟩
    rw [opened_eq ho]
    exact ⟨v, (literal_initial.1 v).2 hi, h⟩

theorem literal_codes (ascii : PrintsAscii env.isPrint) {e : Node} :
    c ∈ (extractErrorCodesFromAffector env f e).1 ↔ LiteralCode env e c := by
  unfold extractErrorCodesFromAffector
  by_cases hl : checkErrorTypeHasLegibleCode env e = true
  · have hl' : env.implCode (env.typeOf e.id) = true ∨ env.implCode (.pointer (env.typeOf e.id)) = true := by
      simpa [checkErrorTypeHasLegibleCode] using hl
    simp only [hl, not_true_eq_false, if_false]
    cases ht : env.getErrorTypeForError (env.typeOf e.id) with
    | none =>
      simp only [List.not_mem_nil, false_iff]
      intro h
      cases h with
      | const _ h => rw [ht] at h; cases h
      | field _ h => rw [ht] at h; cases h
    | some t =>
      have hcs : c ∈ CodeSet.union [] (CodeSet.ofSlice t.codes) ↔ c ∈ t.codes := by
        rw [CodeSet.mem_union, CodeSet.mem_ofSlice]; simp
      cases hf : t.field with
      | none =>
        simp only [hf, hcs]
        constructor
        · exact .const hl' ht
        · intro h
          cases h with
          | const _ h h' => rw [ht] at h; cases h; exact h'
          | field _ h h' => rw [ht] at h; cases h; rw [hf] at h'; cases h'
      | some field =>
        have hr := field_codes (f := f) (c := c) ascii (e := e) (field := field)
        simp only [hf]
        suffices key : _ ↔ c ∈ t.codes ∨ (extractFieldErrorCode env f e field).1 = some c by
          refine key.trans ?_
          rw [hr]
          constructor
          · rintro (h | ⟨at_, id, elts, v, h1, h2, h3⟩)
            · exact .const hl' ht h
            · exact .field hl' ht hf h1 h2 h3
          · intro h
            cases h with
            | const _ h h' => rw [ht] at h; cases h; exact .inl h'
            | field _ h h' h1 h2 h3 => rw [ht] at h; cases h; rw [hf] at h'; cases h'; exact .inr ⟨_, _, _, _, h1, h2, h3⟩
        rcases hx : extractFieldErrorCode env f e field with ⟨_ | x, ds⟩
        · simp [hcs]
        · simp only [CodeSet.mem_add, hcs, Option.some.injEq, eq_comm]
  · have hl' : env.implCode (env.typeOf e.id) = false ∧ env.implCode (.pointer (env.typeOf e.id)) = false := by
      simpa [checkErrorTypeHasLegibleCode] using hl
    rw [if_pos hl]
    have hno : ¬ (env.implCode (env.typeOf e.id) = true ∨ env.implCode (.pointer (env.typeOf e.id)) = true) := by simp [hl'.1, hl'.2]
    simp only [List.not_mem_nil, false_iff]
    intro h
    cases h with
    | const h => exact hno h
    | field h => exact hno h

/-! ## Calls -/

/-- The function found for a name. -/
theorem called_names {lambdas : Ident → Except Stop BodyPlan} {fn : Node} {ce : Option (NodeId × List Node)}
    {r : BodyPlan ⊕ Option FnId} (h : calledFunction env f lambdas fn ce = .ok r) {g : FnId} :
    r = .inr (some g) ↔ Names env fn g := by
  unfold calledFunction at h
  split at h
  · rename_i i hi
    split at h
    · rename_i ho
      split at h
      · rename_i g' hg
        cases h
        constructor
        · intro h; cases h; exact .package hi ho hg
        · intro hn
          cases hn with
          | package h1 h2 h3 => rw [hi] at h1; cases h1; rw [hg] at h3; cases h3; rfl
          | declared h1 h2 => rw [hi] at h1; cases h1; rw [ho] at h2; cases h2
          | method h1 | literal h1 => rw [hi] at h1; cases h1
      · rename_i hg
        cases h
        simp only [reduceCtorEq, false_iff]
        intro hn
        cases hn with
        | package h1 h2 h3 => rw [hi] at h1; cases h1; rw [hg] at h3; cases h3
        | declared h1 h2 => rw [hi] at h1; cases h1; rw [ho] at h2; cases h2
        | method h1 | literal h1 => rw [hi] at h1; cases h1
    · rename_i o ho
      have only : Names env fn g ↔ (env.object o).decl = .funcDecl g := by
        constructor
        · intro hn
          cases hn with
          | package h1 h2 h3 => rw [hi] at h1; cases h1; rw [ho] at h2; cases h2
          | declared h1 h2 h3 => rw [hi] at h1; cases h1; rw [ho] at h2; cases h2; exact h3
          | method h1 | literal h1 => rw [hi] at h1; cases h1
        · exact .declared hi ho
      rw [only]
      split at h
      · rename_i g' hg
        cases h
        rw [hg]
        simp
      · rename_i hg
        rw [hg]
        split at h <;> (cases h; simp)
      · rename_i h1 h2
        simp only [bind, Except.bind] at h
        split at h
        · cases h
        · cases h
          simp only [reduceCtorEq, false_iff]
          exact h1 g
  · rename_i id x sel hi
    dsimp only at h
    have key : (∀ t, x.unparen = .ident t → env.pkgName t.id = none) ↔ (match x.unparen with | .ident t => env.pkgName t.id | _ => none) = none := by
      split
      · rename_i t ht; exact ⟨fun h => h t ht, fun h t' ht' => by rw [ht] at ht'; cases ht'; exact h⟩
      · rename_i hn; exact ⟨fun _ => rfl, fun _ t ht => absurd ht (hn t)⟩
    split at h
    · rename_i pkg hpkg
      cases h
      simp only [reduceCtorEq, false_iff]
      intro hn
      cases hn with
      | package h1 | declared h1 | literal h1 => rw [hi] at h1; cases h1
      | method h1 h2 =>
        rw [hi] at h1; cases h1
        split at hpkg
        · rw [h2 _ (by assumption)] at hpkg; cases hpkg
        · cases hpkg
    · rename_i hpkg
      split at h
      · rename_i hs
        cases h
        simp only [reduceCtorEq, false_iff]
        intro hn
        cases hn with
        | package h1 | declared h1 | literal h1 => rw [hi] at h1; cases h1
        | method h1 h2 h3 => rw [hi] at h1; cases h1; rw [hs] at h3; cases h3
      · rename_i recv o hs
        cases h
        simp only [Sum.inr.injEq]
        constructor
        · exact .method hi (key.2 hpkg) hs
        · intro hn
          cases hn with
          | package h1 | declared h1 | literal h1 => rw [hi] at h1; cases h1
          | method h1 h2 h3 h4 => rw [hi] at h1; cases h1; rw [hs] at h3; cases h3; exact h4
  · rename_i id g' t b hi
    cases h
    simp only [Sum.inr.injEq, Option.some.injEq]
    constructor
    · rintro rfl; exact .literal hi
    · intro hn
      cases hn with
      | package h1 | declared h1 | method h1 => rw [hi] at h1; cases h1
      | literal h1 => rw [hi] at h1; cases h1; rfl
  · rename_i h1 h2 h3
    cases h
    simp only [reduceCtorEq, false_iff]
    intro hn
    cases hn with
    | package h | declared h => exact h1 _ h
    | method h => exact h2 _ _ _ h
    | literal h => exact h3 _ _ _ _ h

/-- Other than variables and conversions, names contribute nothing unless a function is found. -/
theorem called_nothing {lambdas : Ident → Except Stop BodyPlan} {fn : Node} {ce : Option (NodeId × List Node)}
    {p : BodyPlan} (h : calledFunction env f lambdas fn ce = .ok (.inl p))
    (hobj : ∀ i o, fn.unparen = .ident i → i.obj = some o → (∃ g, (env.object o).decl = .funcDecl g) ∨ ((env.object o).decl = .typeSpec ∧ ce = none)) :
    ¬ Gets ρ p c := by
  unfold calledFunction at h
  split at h
  · rename_i i hi
    split at h
    · split at h
      · cases h
      · cases h; simp
    · rename_i o ho
      rcases hobj i o hi ho with ⟨g, hg⟩ | ⟨ht, rfl⟩
      · simp only [hg] at h; cases h
      · simp only [ht] at h; cases h; simp
  · dsimp only at h
    split at h
    · cases h; simp
    · split at h
      · cases h; simp
      · cases h
  · cases h
  · cases h; simp

/-- The codes of a function as value. -/
theorem value_codes {n : Nat} {m : Node} {callee : Option Object} {p : BodyPlan} (h : Analyse.call env f body fuel n m callee none = .ok p)
    (hobj : ∀ i o, m.unparen = .ident i → i.obj = some o → (∃ g, (env.object o).decl = .funcDecl g) ∨ (env.object o).decl = .typeSpec) :
    Gets ρ p c ↔ (∃ o codes, callee = some o ∧ env.facts.codes o = some codes ∧ c ∈ codes) ∨
      ((∀ o, callee = some o → env.facts.codes o = none) ∧ ∃ g, Names env m g ∧ ρ g c) := by
  cases n with
  | zero => simp [Analyse.call] at h
  | succ n =>
    unfold Analyse.call functionCall lift at h
    have hctor : ∃ ctor, extractErrorCodeFromConstructorCall env f m.id callee ((none : Option (NodeId × List Node)).map Prod.snd) = .ok ctor ∧
        ctor.1 = none := by
      unfold extractErrorCodeFromConstructorCall
      cases callee with
      | none => exact ⟨_, rfl, rfl⟩
      | some o =>
        cases hc : env.facts.ctor o with
        | none => exact ⟨_, by simp only [hc]; rfl, rfl⟩
        | some k => exact ⟨_, by simp only [hc, Option.map_none]; rfl, rfl⟩
    obtain ⟨ctor, hc, hcn⟩ := hctor
    rw [hc] at h
    dsimp only at h
    have hcodes : callee.bind env.facts.codes = none ↔ ∀ o, callee = some o → env.facts.codes o = none := by
      cases callee <;> simp
    split at h
    · rename_i codes hk
      cases h
      simp only [gets_union, gets_foundCode, gets_codes, hcn, reduceCtorEq, false_or]
      have hno : ¬ ∀ o, callee = some o → env.facts.codes o = none := by rw [← hcodes, hk]; simp
      obtain ⟨o, ho, hco⟩ := Option.bind_eq_some_iff.1 hk
      simp only [hno, false_and, or_false]
      constructor
      · exact fun h => ⟨o, codes, ho, hco, h⟩
      · rintro ⟨o', codes', h1, h2, h3⟩; rw [ho] at h1; cases h1; rw [hco] at h2; cases h2; exact h3
    · rename_i hk
      have hk' := hcodes.1 hk
      have hno : ¬ ∃ o codes, callee = some o ∧ env.facts.codes o = some codes ∧ c ∈ codes := by
        rintro ⟨o, codes, h1, h2, -⟩; rw [hk' o h1] at h2; cases h2
      have all : (∀ o, callee = some o → env.facts.codes o = none) ↔ True := iff_true_intro hk'
      rw [all]
      simp only [hno, false_or, true_and]
      simp only [Option.isSome_none, Bool.false_eq_true, false_and, if_false, ne_eq, not_true_eq_false, bind, Except.bind] at h
      split at h
      · cases h
      · rename_i r hr
        have key := fun g => called_names (g := g) hr
        split at h
        · rename_i p'
          cases h
          have := called_nothing (ρ := ρ) (c := c) hr (fun i o hi ho => (hobj i o hi ho).imp id fun h => ⟨h, rfl⟩)
          simp only [gets_union, gets_reports, this, or_self, false_iff]
          rintro ⟨g, hg, -⟩
          have := (key g).2 hg
          cases this
        · rename_i g
          cases h
          simp only [gets_union, gets_foundCode, hcn, reduceCtorEq, gets_call, false_or]
          constructor
          · exact fun h => ⟨g, (key g).1 rfl, h⟩
          · rintro ⟨g', hg, h⟩
            have := (key g').2 hg
            cases this
            exact h
        · cases h
          simp only [gets_union, gets_foundCode, hcn, reduceCtorEq, gets_report, or_self, false_iff]
          rintro ⟨g, hg, -⟩
          have := (key g).2 hg
          cases this

theorem lambdaAssignments_codes {name : GoString} {call : Node → Option Object → Except Stop BodyPlan} :
    ∀ (es : List Node) {p : BodyPlan}, lambdaAssignments env name call es = .ok p →
    (∀ e ∈ es, ∃ q, lambdaAssignment env name call e = .ok q) ∧
    (Gets ρ p c ↔ ∃ e ∈ es, ∃ q, lambdaAssignment env name call e = .ok q ∧ Gets ρ q c)
  | [], p, h => by simp only [lambdaAssignments] at h; cases h; simp
  | e :: es, p, h => by
    simp only [lambdaAssignments, bind, Except.bind] at h
    split at h
    · cases h
    · rename_i a ha
      split at h
      · cases h
      · rename_i b hb
        simp only [pure, Except.pure] at h
        cases h
        have ih := lambdaAssignments_codes es hb
        rw [gets_union, ih.2]
        refine ⟨?_, by simp [ha]⟩
        intro e' he'
        rcases List.mem_cons.1 he' with rfl | he'
        · exact ⟨_, ha⟩
        · exact ih.1 e' he'

/-- The codes of calling a variable. -/
theorem variable_codes (scope : LitsBeforeUses env body) {i : Ident} {x : ObjId} (ho : i.obj = some x)
    (hclean : CleanRoot env body i)
    (hfun : ∀ e j o, Value env f body none i e → e.unparen = .ident j → j.obj = some o →
      (∃ g, (env.object o).decl = .funcDecl g) ∨ (env.object o).decl = .typeSpec)
    {n : Nat} {p : BodyPlan} (hb : BodyOk body) (hfuel : enough env ≤ fuel)
    (h : allAssignedLambdas env f body fuel (fun m o => Analyse.call env f body fuel n m o none) i = .ok p) :
    Gets ρ p c ↔ VariableCode env f body ρ i c := by
  unfold allAssignedLambdas lift at h
  obtain ⟨t, ht⟩ := run_ok_fuel (function := env.func f) (param := none) hb hfuel [] i
  rw [ht] at h
  dsimp only at h
  obtain ⟨-, hexp, -, -⟩ := run_spec scope ho hclean ht
  simp only [bind, Except.bind] at h
  split at h
  · cases h
  · rename_i q hq
    simp only [pure, Except.pure] at h
    cases h
    obtain ⟨one, hcodes⟩ := lambdaAssignments_codes (ρ := ρ) (c := c) _ hq
    rw [gets_union, hcodes]
    simp only [gets_reports, false_or]
    have hval : ∀ e, e ∈ t.expressions ↔ ∃ e', Value env f body none i e' ∧ e = e'.unparen := by
      intro e
      rw [hexp]
      constructor
      · rintro ⟨x, e', h1, h2, h3, h4⟩; exact ⟨e', ⟨x, h1, h2, h3⟩, h4⟩
      · rintro ⟨e', ⟨x, h1, h2, h3⟩, h4⟩; exact ⟨x, e', h1, h2, h3, h4⟩
    have hden : ∀ e : Node, ∀ o, Denotes env e.unparen o ↔
        (∃ j, e.unparen = .ident j ∧ env.uses j.id = some o) ∨
        ∃ id x sel, e.unparen = .selector id x sel ∧ (match env.selection id with | some (_, o) => some o | none => env.uses sel.id) = some o := by
      intro e o
      unfold Denotes
      refine or_congr Iff.rfl ⟨?_, ?_⟩
      · rintro ⟨id, x, sel, h, ⟨recv, h'⟩ | ⟨h', h''⟩⟩
        · exact ⟨id, x, sel, h, by simp [h']⟩
        · exact ⟨id, x, sel, h, by simp [h', h'']⟩
      · rintro ⟨id, x, sel, h, h'⟩
        refine ⟨id, x, sel, h, ?_⟩
        split at h'
        · rename_i r o' hs; cases h'; exact .inl ⟨r, hs⟩
        · rename_i hs; exact .inr ⟨hs, h'⟩
    have hobj : ∀ e', Value env f body none i e' → ∀ j o, e'.unparen.unparen = .ident j → j.obj = some o →
        (∃ g, (env.object o).decl = .funcDecl g) ∨ (env.object o).decl = .typeSpec :=
      fun e' hv j o hj ho => hfun e' j o hv (by rwa [Node.unparen_unparen] at hj) ho
    -- a name among the values
    have isName : ∀ e', Value env f body none i e' → ∀ callee, (∀ o, callee = some o ↔ Denotes env e'.unparen o) →
        ((∃ j, e'.unparen = .ident j) ∨ ∃ id x sel, e'.unparen = .selector id x sel) → ∀ q',
        Analyse.call env f body fuel n e'.unparen callee none = .ok q' →
        (Gets ρ q' c ↔ (∃ o codes, Denotes env e'.unparen o ∧ env.facts.codes o = some codes ∧ c ∈ codes) ∨
          ((∀ o, Denotes env e'.unparen o → env.facts.codes o = none) ∧ ∃ g, Names env e'.unparen g ∧ ρ g c)) := by
      intro e' hv callee hc _ q' hq'
      rw [value_codes hq' (hobj e' hv)]
      simp only [hc]
    have cal : ∀ e' : Node, (∀ j, e'.unparen = .ident j → ∀ o, env.uses j.id = some o ↔ Denotes env e'.unparen o) ∧
        (∀ id y sel, e'.unparen = .selector id y sel →
          ∀ o, (match env.selection id with | some (_, o) => some o | none => env.uses sel.id) = some o ↔ Denotes env e'.unparen o) := by
      intro e'
      refine ⟨fun j hj o => ?_, fun id y sel hj o => ?_⟩
      · rw [hden]
        constructor
        · exact fun h => .inl ⟨j, hj, h⟩
        · rintro (⟨j', hj', h⟩ | ⟨_, _, _, hj', -⟩)
          · rw [hj] at hj'; cases hj'; exact h
          · rw [hj] at hj'; cases hj'
      · rw [hden]
        constructor
        · exact fun h => .inr ⟨id, y, sel, hj, h⟩
        · rintro (⟨j', hj', h⟩ | ⟨_, _, _, hj', h⟩)
          · rw [hj] at hj'; cases hj'
          · rw [hj] at hj'; cases hj'; exact h
    have each : ∀ e', Value env f body none i e' → ∀ q', lambdaAssignment env i.name (fun m o => Analyse.call env f body fuel n m o none) e'.unparen = .ok q' →
        (Gets ρ q' c ↔ (∃ id g t b, e'.unparen = .funcLit id g t b ∧ ρ g c) ∨
          (((∃ j, e'.unparen = .ident j) ∨ ∃ id x sel, e'.unparen = .selector id x sel) ∧
          ((∃ o codes, Denotes env e'.unparen o ∧ env.facts.codes o = some codes ∧ c ∈ codes) ∨
          ((∀ o, Denotes env e'.unparen o → env.facts.codes o = none) ∧ ∃ g, Names env e'.unparen g ∧ ρ g c)))) := by
      intro e' hv q' hq'
      unfold lambdaAssignment at hq'
      rw [Node.unparen_unparen] at hq'
      split at hq'
      · rename_i id g t b hj
        cases hq'
        rw [gets_visit]
        constructor
        · exact fun h => .inl ⟨_, _, _, _, hj, h⟩
        · rintro (⟨_, _, _, _, h1, h2⟩ | ⟨⟨j, h⟩ | ⟨_, _, _, h⟩, -⟩)
          · rw [hj] at h1; cases h1; exact h2
          · rw [hj] at h; cases h
          · rw [hj] at h; cases h
      · rename_i j hj
        rw [← hj] at hq'
        rw [isName e' hv _ ((cal e').1 j hj) (.inl ⟨j, hj⟩) q' hq']
        have : ¬ ∃ id g t b, e'.unparen = .funcLit id g t b ∧ ρ g c := by rw [hj]; simp
        simp only [this, false_or]
        exact ⟨fun h => ⟨.inl ⟨j, hj⟩, h⟩, fun h => h.2⟩
      · rename_i id y sel hj
        rw [← hj] at hq'
        rw [isName e' hv _ ((cal e').2 id y sel hj) (.inr ⟨_, _, _, hj⟩) q' hq']
        have : ¬ ∃ id g t b, e'.unparen = .funcLit id g t b ∧ ρ g c := by rw [hj]; simp
        simp only [this, false_or]
        exact ⟨fun h => ⟨.inr ⟨_, _, _, hj⟩, h⟩, fun h => h.2⟩
      · rename_i h1 h2 h3
        cases hq'
        simp only [gets_report, false_iff]
        rintro (⟨id, g, t, b, h, -⟩ | ⟨⟨j, h⟩ | ⟨id, x, sel, h⟩, -⟩)
        · exact h1 _ _ _ _ h
        · exact h2 _ h
        · exact h3 _ _ _ h
    constructor
    · rintro ⟨e, he, q', hq', hr⟩
      obtain ⟨e', hv, rfl⟩ := (hval e).1 he
      rcases (each e' hv q' hq').1 hr with ⟨id, g, t, b, h1, h2⟩ | ⟨hk, ⟨o, codes, h1, h2, h3⟩ | ⟨h1, g, h2, h3⟩⟩
      · exact .literal hv h1 h2
      · exact .known hv h1 h2 h3
      · exact .named hv hk h1 h2 h3
    · intro h
      have go : ∀ e', Value env f body none i e' → ((∃ id g t b, e'.unparen = .funcLit id g t b ∧ ρ g c) ∨
          (((∃ j, e'.unparen = .ident j) ∨ ∃ id x sel, e'.unparen = .selector id x sel) ∧
          ((∃ o codes, Denotes env e'.unparen o ∧ env.facts.codes o = some codes ∧ c ∈ codes) ∨
          ((∀ o, Denotes env e'.unparen o → env.facts.codes o = none) ∧ ∃ g, Names env e'.unparen g ∧ ρ g c)))) →
          ∃ e ∈ t.expressions, ∃ q, lambdaAssignment env i.name (fun m o => Analyse.call env f body fuel n m o none) e = .ok q ∧ Gets ρ q c := by
        intro e' hv hh
        have hm := (hval e'.unparen).2 ⟨e', hv, rfl⟩
        obtain ⟨q', hq'⟩ := one _ hm
        exact ⟨_, hm, q', hq', (each e' hv q' hq').2 hh⟩
      cases h with
      | literal hv h1 h2 => exact go _ hv (.inl ⟨_, _, _, _, h1, h2⟩)
      | known hv h1 h2 h3 =>
        refine go _ hv (.inr ⟨?_, .inl ⟨_, _, h1, h2, h3⟩⟩)
        rcases h1 with ⟨j, hj, -⟩ | ⟨id, x, sel, hj, -⟩
        · exact .inl ⟨j, hj⟩
        · exact .inr ⟨id, x, sel, hj⟩
      | named hv hk h1 h2 h3 => exact go _ hv (.inr ⟨hk, .inr ⟨h1, _, h2, h3⟩⟩)

/-- The codes of a call. -/
theorem call_codes (ascii : PrintsAscii env.isPrint) (scope : LitsBeforeUses env body) (hb : BodyOk body) (hfuel : enough env ≤ fuel)
    {id : NodeId} {fn : Node} {args : List Node}
    (hclean : ∀ i, fn.unparen = .ident i → CleanRoot env body i)
    (hfun : ∀ i e j o, fn.unparen = .ident i → Value env f body none i e → e.unparen = .ident j → j.obj = some o →
      (∃ g, (env.object o).decl = .funcDecl g) ∨ (env.object o).decl = .typeSpec)
    {p : BodyPlan} (h : callExpression env f body fuel id fn args = .ok p) (hp : ¬ Panics p) :
    Gets ρ p c ↔ CallCode env f body ρ id fn args c := by
  unfold callExpression at h
  revert h
  generalize hn : fuel = n
  intro h
  have hn' : enough env ≤ n := hn ▸ hfuel
  cases hc0 : n with
  | zero => rw [hc0] at h; simp [Analyse.call] at h
  | succ k =>
  have h' : functionCall env f (allAssignedLambdas env f body n (fun m o => Analyse.call env f body n k m o none)) fn (env.callee id)
      (some (id, args)) = .ok p := by
    have : Analyse.call env f body n n fn (env.callee id) (some (id, args)) = Analyse.call env f body n (k + 1) fn (env.callee id) (some (id, args)) := by
      rw [← hc0]
    rw [this] at h
    exact h
  clear h
  unfold functionCall lift at h'
  simp only [Option.map_some] at h'
  cases hctor : extractErrorCodeFromConstructorCall env f fn.id (env.callee id) (some args) with
  | error e =>
    obtain ⟨loc, rfl⟩ := constructorCall_error_panic hctor
    rw [hctor] at h'
    cases h'
    exact absurd panics_panic hp
  | ok ctor =>
    rw [hctor] at h'
    dsimp only at h'
    have hcd : ctor.1 = some c ↔ ∃ o position a, env.callee id = some o ∧ env.facts.ctor o = some position ∧ args[position]? = some a ∧
        Text env a c := by
      unfold extractErrorCodeFromConstructorCall at hctor
      cases hcal : env.callee id with
      | none => simp only [hcal] at hctor; cases hctor; simp
      | some o =>
        simp only [hcal] at hctor
        cases hfc : env.facts.ctor o with
        | none => simp only [hfc] at hctor; cases hctor; simp [hfc]
        | some position =>
          simp only [hfc] at hctor
          cases ha : args[position]? with
          | none => simp only [ha] at hctor; cases hctor
          | some a =>
            simp only [ha] at hctor
            cases hctor
            rw [text_codes ascii]
            simp [hfc, ha]
    have hcodes : ((env.callee id).bind env.facts.codes = none ∧
        (if (some (id, args)).isSome = true ∧ env.callee id = none then extractErrorCodesFromTypeConversion env fn else []) = []) ↔ BodyReports.NoCodes env id fn := by
      unfold BodyReports.NoCodes extractErrorCodesFromTypeConversion
      cases env.callee id with
      | some o => simp
      | none =>
        cases ht : env.getErrorTypeForError (env.typeOf fn.id) with
        | none => simp
        | some t =>
          simp only [Option.bind_none, Option.isSome_some, and_self, if_true, true_and, reduceCtorEq, false_implies, implies_true, Option.some.injEq,
            forall_eq', forall_const]
          constructor
          · intro h
            refine List.eq_nil_iff_forall_not_mem.2 fun c hc => ?_
            have := CodeSet.mem_ofSlice.2 hc
            rw [h] at this; cases this
          · intro h; rw [h]; rfl
    split at h'
    · rename_i codes hk
      cases h'
      have hno : ¬ BodyReports.NoCodes env id fn := by rw [← hcodes, hk]; simp
      obtain ⟨o, ho, hco⟩ := Option.bind_eq_some_iff.1 hk
      rw [gets_union, gets_foundCode, gets_codes, hcd]
      constructor
      · rintro (⟨o', position, a, h1, h2, h3, h4⟩ | h)
        · rw [ho] at h1; cases h1
          exact .argument ho h2 h3 h4 (.inl ⟨_, hco⟩)
        · exact .known ho hco h
      · intro h
        cases h with
        | known h1 h2 h3 => rw [ho] at h1; cases h1; rw [hco] at h2; cases h2; exact .inr h3
        | argument h1 h2 h3 h4 => exact .inl ⟨_, _, _, h1, h2, h3, h4⟩
        | type h1 => rw [ho] at h1; cases h1
        | named h => exact absurd h hno
        | conversion h => exact absurd h hno
        | viaVariable h => exact absurd h hno
    · rename_i hk
      have hk' : ∀ o, env.callee id = some o → env.facts.codes o = none := fun o ho => by rw [ho] at hk; exact hk
      generalize hcc : (if (some (id, args)).isSome = true ∧ env.callee id = none then extractErrorCodesFromTypeConversion env fn else []) = cc at h' hcodes
      split at h'
      · rename_i hne
        cases h'
        have hno : ¬ BodyReports.NoCodes env id fn := by rw [← hcodes]; exact fun h => hne h.2
        have hnone : env.callee id = none := by
          cases hcal : env.callee id with
          | none => rfl
          | some o => rw [hcal] at hcc; simp at hcc; exact absurd hcc hne
        rw [if_pos ⟨rfl, hnone⟩] at hcc
        rw [gets_union, gets_foundCode, gets_codes, hcd, ← hcc]
        unfold extractErrorCodesFromTypeConversion at hcc ⊢
        cases ht : env.getErrorTypeForError (env.typeOf fn.id) with
        | none => rw [ht] at hcc; exact absurd hcc.symm hne
        | some t =>
          simp only [CodeSet.mem_ofSlice]
          constructor
          · rintro (⟨o, _, _, h, -⟩ | h)
            · rw [hnone] at h; cases h
            · exact .type hnone ht h
          · intro h
            cases h with
            | known h1 => rw [hnone] at h1; cases h1
            | argument h1 => rw [hnone] at h1; cases h1
            | type _ h1 h2 => rw [ht] at h1; cases h1; exact .inr h2
            | named h => exact absurd h hno
            | conversion h => exact absurd h hno
            | viaVariable h => exact absurd h hno
      · rename_i hne
        simp only [ne_eq, Classical.not_not] at hne
        have hno : BodyReports.NoCodes env id fn := hcodes.1 ⟨hk, hne⟩
        simp only [bind, Except.bind] at h'
        split at h'
        · cases h'
        · rename_i r hr
          have names := fun g => called_names (g := g) hr
          -- what is left of the call
          have unknown : CallCode env f body ρ id fn args c ↔
              (ctor.1 = some c ∧ ((∃ g, Names env fn g) ∨ NameProblem env fn ⟨fn.id, .calleeUndeclared⟩)) ∨ (∃ g, Names env fn g ∧ ρ g c) ∨
              (∃ i o, fn.unparen = .ident i ∧ i.obj = some o ∧ (env.object o).decl = .typeSpec ∧ LiteralCode env (.call id fn args) c) ∨
              (∃ i o, fn.unparen = .ident i ∧ i.obj = some o ∧ (∀ g, (env.object o).decl ≠ .funcDecl g) ∧ (env.object o).decl ≠ .typeSpec ∧
                VariableCode env f body ρ i c) := by
            rw [hcd]
            constructor
            · intro h
              cases h with
              | known h1 h2 => rw [hk' _ h1] at h2; cases h2
              | argument h1 h2 h3 h4 h5 =>
                refine .inl ⟨⟨_, _, _, h1, h2, h3, h4⟩, h5.resolve_left ?_⟩
                rintro ⟨_, h⟩; rw [hk' _ h1] at h; cases h
              | type h1 h2 h3 => rw [hno.2 h1 _ h2] at h3; cases h3
              | named _ h1 h2 => exact .inr (.inl ⟨_, h1, h2⟩)
              | conversion _ h1 h2 h3 h4 => exact .inr (.inr (.inl ⟨_, _, h1, h2, h3, h4⟩))
              | viaVariable _ h1 h2 h3 h4 h5 => exact .inr (.inr (.inr ⟨_, _, h1, h2, h3, h4, h5⟩))
            · rintro (⟨⟨o, position, a, h1, h2, h3, h4⟩, h5⟩ | ⟨g, h1, h2⟩ | ⟨i, o, h1, h2, h3, h4⟩ | ⟨i, o, h1, h2, h3, h4, h5⟩)
              · exact .argument h1 h2 h3 h4 (.inr h5)
              · exact .named hno h1 h2
              · exact .conversion hno h1 h2 h3 h4
              · exact .viaVariable hno h1 h2 h3 h4 h5
          rw [unknown]
          by_cases hid : ∃ i o, fn.unparen = .ident i ∧ i.obj = some o ∧ ∀ g, (env.object o).decl ≠ .funcDecl g
          · obtain ⟨i, o, hi, ho, hg⟩ := hid
            have hname : ∀ d, ¬ NameProblem env fn d := by
              intro d hn
              cases hn with
              | dotImport h1 h2 => rw [hi] at h1; cases h1; rw [ho] at h2; cases h2
              | foreign h1 => rw [hi] at h1; cases h1
              | method h1 => rw [hi] at h1; cases h1
              | unnamed h1 => exact absurd hi (h1 _)
            have hnames : ∀ g, ¬ Names env fn g := by
              intro g hn
              cases hn with
              | package h1 h2 => rw [hi] at h1; cases h1; rw [ho] at h2; cases h2
              | declared h1 h2 h3 => rw [hi] at h1; cases h1; rw [ho] at h2; cases h2; exact hg _ h3
              | method h1 | literal h1 => rw [hi] at h1; cases h1
            simp only [hname, hnames, false_and, exists_false, or_self, and_false, false_or]
            unfold calledFunction at hr
            simp only [hi, ho] at hr
            split at hr
            · rename_i g hg'; exact absurd hg' (hg g)
            · rename_i ht
              cases hr
              cases h'
              simp only [gets_union, gets_reports, gets_founds, false_or, literal_codes ascii]
              constructor
              · intro h; exact .inl ⟨i, o, hi, ho, ht, h⟩
              · rintro (⟨i', o', h1, h2, h3, h4⟩ | ⟨i', o', h1, h2, h3, h4, h5⟩)
                · exact h4
                · rw [hi] at h1; cases h1; rw [ho] at h2; cases h2; exact absurd ht h4
            · rename_i ht
              simp only [bind, Except.bind] at hr
              split at hr
              · cases hr
              · rename_i q hq
                simp only [pure, Except.pure] at hr
                cases hr
                cases h'
                subst hn
                have := variable_codes (ρ := ρ) (c := c) scope ho (hclean i hi) (fun e j o => hfun i e j o hi) hb hfuel hq
                simp only [gets_union, gets_reports, false_or, this]
                constructor
                · intro h; exact .inr ⟨i, o, hi, ho, hg, ht, h⟩
                · rintro (⟨i', o', h1, h2, h3, h4⟩ | ⟨i', o', h1, h2, h3, h4, h5⟩)
                  · rw [hi] at h1; cases h1; rw [ho] at h2; cases h2; exact absurd h3 ht
                  · rw [hi] at h1; cases h1; exact h5
          · have hall : ∀ i o, fn.unparen = .ident i → i.obj = some o → ∃ g, (env.object o).decl = .funcDecl g := by
              intro i o hi ho
              apply Classical.byContradiction
              intro hc
              exact hid ⟨i, o, hi, ho, fun g hg => hc ⟨g, hg⟩⟩
            have hnocv : ¬ ((∃ i o, fn.unparen = .ident i ∧ i.obj = some o ∧ (env.object o).decl = .typeSpec ∧ LiteralCode env (.call id fn args) c) ∨
              (∃ i o, fn.unparen = .ident i ∧ i.obj = some o ∧ (∀ g, (env.object o).decl ≠ .funcDecl g) ∧ (env.object o).decl ≠ .typeSpec ∧
                VariableCode env f body ρ i c)) := by
              rintro (⟨i, o, h1, h2, h3, -⟩ | ⟨i, o, h1, h2, h3, -⟩)
              · obtain ⟨g, hg⟩ := hall i o h1 h2; rw [hg] at h3; cases h3
              · obtain ⟨g, hg⟩ := hall i o h1 h2; exact h3 g hg
            have reported := called_reports (d := ⟨fn.id, .calleeUndeclared⟩) hr fun i o hi ho => .inl (hall i o hi ho)
            simp only [hnocv, or_false]
            split at h'
            · rename_i p'
              cases h'
              have quiet := called_nothing (ρ := ρ) (c := c) hr fun i o hi ho => .inl (hall i o hi ho)
              have hnames : ∀ g, ¬ Names env fn g := fun g hg => by have := (names g).2 hg; cases this
              have hmethod : ¬ NameProblem env fn ⟨fn.id, .calleeUndeclared⟩ := by
                generalize hd : (⟨fn.id, .calleeUndeclared⟩ : Diag) = d
                intro hn
                cases hn with
                | dotImport | foreign | unnamed => simp at hd
                | method h1 h2 h3 h4 =>
                  unfold calledFunction at hr
                  simp only [h1] at hr
                  split at hr
                  · rename_i pkg hpkg
                    split at hpkg
                    · rw [h2 _ (by assumption)] at hpkg; cases hpkg
                    · cases hpkg
                  · simp only [h3] at hr; cases hr
              simp [quiet, hnames, hmethod]
            · rename_i g
              cases h'
              have hg := (names g).1 rfl
              have only : ∀ g', Names env fn g' → g' = g := fun g' h => by have := (names g').2 h; cases this; rfl
              simp only [gets_union, gets_foundCode, gets_call]
              constructor
              · rintro (h | h)
                · exact .inl ⟨h, .inl ⟨g, hg⟩⟩
                · exact .inr ⟨g, hg, h⟩
              · rintro (⟨h, -⟩ | ⟨g', h1, h2⟩)
                · exact .inl h
                · rw [only g' h1] at h2; exact .inr h2
            · cases h'
              have hnames : ∀ g, ¬ Names env fn g := fun g hg => by have := (names g).2 hg; cases this
              have hm := reported.1 (.inr ⟨rfl, rfl⟩)
              simp [hnames, hm]

/-! ## Expressions, fields, the parameter -/

/-- The codes of an expression by itself. -/
theorem terminal_codes (ascii : PrintsAscii env.isPrint) {e : Node} (hno : ∀ id fn args, e.unparen ≠ .call id fn args) {q : BodyPlan}
    (hq : terminal env f body fuel e = .ok q) : Gets ρ q c ↔ ExprCode env f body ρ e c := by
  unfold terminal at hq
  cases he : e.unparen with
  | call id fn args => exact absurd he (hno _ _ _)
  | unary id isAnd x =>
    simp only [he] at hq
    by_cases hc : isAnd = true ∧ env.implError (env.typeOf id) = true
    · obtain ⟨rfl, hc⟩ := hc
      simp only [hc, Bool.and_self, if_true] at hq
      cases hx : x.unparen with
      | ident i =>
        simp only [hx] at hq
        cases hq
        simp only [gets_codes, List.not_mem_nil, false_iff]
        intro h
        cases h with
        | address h1 h2 h3 => rw [he] at h1; cases h1; exact h3 i hx
        | call h1 | literal h1 | basic h1 => rw [he] at h1; cases h1
      | _ =>
        simp only [hx] at hq
        cases hq
        rw [gets_founds, literal_codes ascii]
        constructor
        · exact .address he hc (by simp [hx])
        · intro h
          cases h with
          | address h1 h2 h3 h4 => rw [he] at h1; cases h1; exact h4
          | call h1 | literal h1 | basic h1 => rw [he] at h1; cases h1
    · rw [if_neg (by simpa using hc)] at hq
      cases hq
      simp only [gets_report, false_iff]
      intro h
      cases h with
      | address h1 h2 h3 h4 => rw [he] at h1; cases h1; exact hc ⟨rfl, h2⟩
      | call h1 | literal h1 | basic h1 => rw [he] at h1; cases h1
  | typeAssert id x t =>
    have hn : ¬ ExprCode env f body ρ e c := by
      intro h
      cases h with
      | call h1 | literal h1 | basic h1 | address h1 => rw [he] at h1; cases h1
    cases t with
    | none => simp only [he] at hq; cases hq; simp [hn]
    | some t => simp only [he] at hq; cases hq; simp [hn]
  | compositeLit id elts =>
    simp only [he] at hq
    cases hq
    rw [gets_founds, literal_codes ascii]
    constructor
    · exact .literal he
    · intro h
      cases h with
      | literal h1 h2 => rw [he] at h1; cases h1; exact h2
      | call h1 | basic h1 | address h1 => rw [he] at h1; cases h1
  | basicLit id =>
    simp only [he] at hq
    cases hq
    rw [gets_founds, literal_codes ascii]
    constructor
    · exact .basic he
    · intro h
      cases h with
      | basic h1 h2 => rw [he] at h1; cases h1; exact h2
      | call h1 | literal h1 | address h1 => rw [he] at h1; cases h1
  | _ =>
    simp only [he] at hq
    cases hq
    simp only [gets_report, gets_codes, List.not_mem_nil, false_iff]
    intro h
    cases h with
    | call h1 | literal h1 | basic h1 | address h1 => rw [he] at h1; cases h1

theorem codesOfExpressions_codes (ascii : PrintsAscii env.isPrint) : ∀ es : List Node,
    c ∈ (codesOfExpressions env f es).1 ↔ ∃ e ∈ es, Text env e c
  | [] => by simp [codesOfExpressions]
  | e :: es => by
    have ih := codesOfExpressions_codes ascii es
    have ht := text_codes (f := f) (c := c) ascii (v := e)
    simp only [codesOfExpressions, List.mem_cons, exists_eq_or_imp, ← ih, ← ht]
    rcases extractErrorCodeFromStringExpression env f e with ⟨_ | x, ds⟩
    · simp
    · simp only [CodeSet.mem_union, List.mem_singleton, Option.some.injEq]
      constructor <;> rintro (h | h) <;> simp [h]

theorem fieldAssignment_none {x : ObjId} (len : Nat) (rhs : List Node) : ∀ (ls : List Node) (et : Option ErrorType) (n : Nat),
    (∀ k i, FieldOf x ls k i → ∀ t, env.getErrorTypeForError (env.typeOf i.id) = some t → t.field = none) →
    (∀ t, et = some t → t.field = none) → ¬ Gets ρ (fieldAssignment env f x len rhs et n ls) c
  | [], et, n, _, _ => by simp [fieldAssignment]
  | m :: ms, et, n, hty, het => by
    have hty' : ∀ k i, FieldOf x ms k i → ∀ t, env.getErrorTypeForError (env.typeOf i.id) = some t → t.field = none :=
      fun k i h => hty (k + 1) i (fieldOf_succ.2 h)
    have ih := fun et het => fieldAssignment_none (x := x) len rhs ms et (n + 1) hty' het
    simp only [fieldAssignment]
    split
    · exact ih et het
    · rename_i i sel hm
      split
      · exact ih et het
      · rename_i ho
        simp only [ne_eq, Classical.not_not] at ho
        split
        · exact ih none (by simp)
        · rename_i t ht
          have hf : t.field = none := by
            unfold resolveType at ht
            split at ht
            · cases ht; exact het _ rfl
            · exact hty 0 i (fieldTarget_of.2 ⟨⟨sel, hm⟩, ho⟩) t ht
          split
          · split
            · exact ih (some t) (fun t' h => by cases h; exact hf)
            · simp
          · rename_i h; rw [hf] at h; cases h

theorem fieldAssignments_none {x : ObjId} : ∀ ns : List Node,
    (∀ id lhs rhs k i, .assign id lhs rhs ∈ ns → FieldOf x lhs k i → ∀ t, env.getErrorTypeForError (env.typeOf i.id) = some t → t.field = none) →
    ¬ Gets ρ (fieldAssignments env f x ns) c
  | [], _ => by simp [fieldAssignments]
  | n :: ns, h => by
    have ih := fieldAssignments_none (x := x) ns fun id lhs rhs k i hm => h id lhs rhs k i (List.mem_cons_of_mem _ hm)
    cases n with
    | assign id lhs rhs =>
      simp only [fieldAssignments, gets_union, ih, or_false]
      exact fieldAssignment_none _ _ _ _ _ (fun k i hf => h id lhs rhs k i (by simp) hf) (by simp)
    | _ => exact ih

/-- The codes of the assignments to the code field of a variable. -/
theorem fields_codes (ascii : PrintsAscii env.isPrint) (hb : BodyOk body) {x : ObjId}
    (one : ∀ i i', FieldAssigned body x i → FieldAssigned body x i' → env.typeOf i.id = env.typeOf i'.id) :
    Gets ρ (fieldAssignments env f x (Node.inspectList intoFields body)) c ↔
      ∃ t fd e, ∃ i : Ident, i.obj = some x ∧ env.getErrorTypeForError (env.typeOf i.id) = some t ∧ t.field = some fd ∧
        AssignsField body i fd.name e ∧ Text env e c := by
  have hne : ∀ id lhs rhs, .assign id lhs rhs ∈ Node.inspectList intoFields body → lhs.length ≠ rhs.length → rhs ≠ [] := by
    intro id lhs rhs hin hlen hnil
    subst hnil
    exact hb.assigns id lhs [] (Props.ErrorTypes.occurs_of_within ((mem_inspectList _ _ _).1 hin)) (fun h => hlen (by simp [h])) rfl
  by_cases hex : ∃ id lhs rhs k i t fd, .assign id lhs rhs ∈ Node.inspectList intoFields body ∧ FieldOf x lhs k i ∧
      env.getErrorTypeForError (env.typeOf i.id) = some t ∧ t.field = some fd
  · obtain ⟨id₀, lhs₀, rhs₀, k₀, i₀, t, fd, hin₀, hf₀, ht, hfd⟩ := hex
    rw [intoFields_eq, mem_inspectList] at hin₀
    have same : ∀ id lhs rhs k i, WithinList outsideAssignments (.assign id lhs rhs) body → FieldOf x lhs k i →
        env.getErrorTypeForError (env.typeOf i.id) = some t := fun id lhs rhs k i hw h => by
      rw [one i i₀ ⟨id, lhs, rhs, k, hw, h⟩ ⟨id₀, lhs₀, rhs₀, k₀, hin₀, hf₀⟩]; exact ht
    have hty : FieldTypes env (Node.inspectList intoFields body) x t := by
      intro id lhs rhs hw sid i sel hm ho
      rw [intoFields_eq, mem_inspectList] at hw
      obtain ⟨k, hk⟩ := List.getElem?_of_mem hm
      exact same id lhs rhs k i hw ⟨sid, sel, hk, ho⟩
    have hl : ∀ l : BodyPlan, l.Yields ρ c → l ≠ .codes [] := by
      rintro _ h rfl; simp [Plan.Yields] at h
    constructor
    · rintro ⟨l, hm, hy⟩
      rw [fieldAssignments_leaves hfd (hl l hy) _ hne hty] at hm
      rcases hm with ⟨hm, hlen, ⟨sid, i, sel, h1, h2, h3⟩, he, hl⟩ | ⟨hm, hlen, ⟨sid, i, sel, h1, h2, h3⟩, he, rfl⟩
      · rename_i id lhs rhs k e
        rw [intoFields_eq, mem_inspectList] at hm
        exact ⟨t, fd, e, i, h2, same id lhs rhs k i hm ⟨sid, sel, h1, h2⟩, hfd, ⟨id, lhs, rhs, k, sid, sel, hm, hlen, h1, h3, he⟩,
          (text_codes ascii).1 (gets_foundCode.1 ⟨l, hl, hy⟩)⟩
      · exact hy.elim
    · rintro ⟨t', fd', e, i, ho, ht', hfd', ⟨id, lhs, rhs, k, sid, sel, hm, hlen, h1, h3, he⟩, hp⟩
      rw [same id lhs rhs k i hm ⟨sid, sel, h1, ho⟩] at ht'; cases ht'; rw [hfd] at hfd'; cases hfd'
      obtain ⟨l, hm', hy⟩ := (gets_foundCode (ρ := ρ)).2 ((text_codes (f := f) ascii).2 hp)
      exact ⟨l, (fieldAssignments_leaves hfd (hl l hy) _ hne hty).2
        (.assigned (by rw [intoFields_eq, mem_inspectList]; exact hm) hlen ⟨sid, i, sel, h1, ho, h3⟩ he hm'), hy⟩
  · have hq := fieldAssignments_none (env := env) (f := f) (x := x) (ρ := ρ) (c := c) (Node.inspectList intoFields body)
      fun id lhs rhs k i hm hf t ht => by
        cases hfd : t.field with
        | none => rfl
        | some fd => exact absurd ⟨id, lhs, rhs, k, i, t, fd, hm, hf, ht, hfd⟩ hex
    simp only [hq, false_iff]
    rintro ⟨t', fd', e, i, ho, ht', hfd', ⟨id, lhs, rhs, k, sid, sel, hm, hlen, h1, h3, he⟩, hp⟩
    exact hex ⟨id, lhs, rhs, k, i, t', fd', by rw [intoFields_eq, mem_inspectList]; exact hm, ⟨sid, sel, h1, ho⟩, ht', hfd'⟩

/-- The codes assigned to the error code parameter. -/
theorem param_codes (ascii : PrintsAscii env.isPrint) (scope : LitsBeforeUses env body)
    (clean : ∀ i, CodeParam env f i → CleanRoot env body i) {x : Founds}
    (hx : extractErrorCodesFromConstructor env f body fuel = .ok x) :
    c ∈ x.1 ↔ ∃ i e, CodeParam env f i ∧ Value env f body i.obj i e ∧ Text env e.unparen c := by
  unfold extractErrorCodesFromConstructor at hx
  cases hpos : importErrorConstructorFact env f with
  | none =>
    simp only [hpos] at hx
    cases hx
    simp only [List.not_mem_nil, false_iff]
    rintro ⟨i, e, hc, -⟩
    obtain ⟨k, h1, -⟩ := codeParam_iff.1 hc
    rw [hpos] at h1; cases h1
  | some position =>
    simp only [hpos] at hx
    cases hi : getParamIdent (env.func f).type position with
    | none => simp only [hi] at hx; cases hx
    | some i =>
      simp only [hi] at hx
      cases ht : run env (env.func f) body i.obj fuel [] i with
      | error e => simp only [ht] at hx; cases hx
      | ok t =>
        simp only [ht, Except.ok.injEq] at hx
        subst hx
        have hc : CodeParam env f i := codeParam_iff.2 ⟨position, hpos, hi⟩
        have uniq : ∀ j, CodeParam env f j → j = i := fun j hj => by
          obtain ⟨k, h1, h2⟩ := codeParam_iff.1 hj
          rw [hpos] at h1; cases h1; rw [hi] at h2; cases h2; rfl
        show c ∈ (codesOfExpressions env f t.expressions).1 ↔ _
        rw [codesOfExpressions_codes ascii]
        have hval : ∀ e, e ∈ t.expressions ↔ ∃ e', Value env f body i.obj i e' ∧ e = e'.unparen := by
          intro e
          cases ho : i.obj with
          | none =>
            rw [ho] at ht
            have := run_noObj ho ht
            subst this
            have htr : ∀ y, ¬ Tracked env (env.func f) body none [] i y := by
              intro y h
              induction h with
              | start h => rw [ho] at h; cases h
              | step _ _ _ _ _ _ ih => exact ih
            simp only [List.not_mem_nil, false_iff]
            rintro ⟨e', ⟨y, h, -⟩, -⟩
            exact htr y h
          | some o =>
            rw [ho] at ht
            obtain ⟨-, hexp, -, -⟩ := run_spec scope ho (clean i hc) ht
            rw [hexp]
            constructor
            · rintro ⟨x, e', h1, h2, h3, h4⟩; exact ⟨e', ⟨x, h1, h2, h3⟩, h4⟩
            · rintro ⟨e', ⟨x, h1, h2, h3⟩, h4⟩; exact ⟨x, e', h1, h2, h3, h4⟩
        constructor
        · rintro ⟨e, he, h⟩
          obtain ⟨e', hv, rfl⟩ := (hval e).1 he
          exact ⟨i, e', hc, hv, h⟩
        · rintro ⟨j, e', hj, hv, h⟩
          cases uniq j hj
          exact ⟨_, (hval _).2 ⟨e', hv, rfl⟩, h⟩

/-! ## A body -/

/-- The codes of a function body, exactly. -/
theorem body_codes (h : Regular env f body) (ty : Typed env f body) (ascii : PrintsAscii env.isPrint) (hf : bound env ≤ fuel)
    (apart : Apart env f body) (calm : (plan env fuel f).panics = false) :
    (plan env fuel f).Yields ρ c ↔ BodyCode env f body ρ c := by
  obtain ⟨x, hx⟩ := h.constructor hf
  have hbe := bound_enough hf
  have nopanic : ∀ q : BodyPlan, (∀ l ∈ q.leaves, l ≠ .codes [] → l ∈ (plan env fuel f).leaves) → ¬ Panics q := by
    rintro q hq ⟨loc, hm⟩
    have := (Plan.panics_iff (p := plan env fuel f)).2 ⟨loc, hq _ hm (by simp)⟩
    rw [calm] at this; cases this
  have callR : ∀ id fn args q, Props.Calls.ErrCall env f body id fn args → callExpression env f body fuel id fn args = .ok q →
      (Gets ρ q c ↔ CallCode env f body ρ id fn args c) := by
    intro id fn args q hc hq
    exact call_codes ascii h.scope.before h.parsed hbe (fun i hi => ty.clean id fn args i hc hi)
      (fun i e j o hi => ty.functions id fn args i e j o hc hi) hq (nopanic q fun l hm hn => hc.leaves h hf hq hm hn)
  have up : ∀ {id results}, Returns env body id results →
      (∀ {e}, ErrExprFrom env f body (ResultOf env f results) e → ErrExpr env f body e) ∧
      ∀ {y}, ErrVarFrom env f body (ResultOf env f results) y → ErrVar env f body y := fun hr =>
    ⟨fun he => he.mono fun e h => ⟨_, _, hr, h⟩, fun hv => hv.mono fun e h => ⟨_, _, hr, h⟩⟩
  rw [h.yields hf apart hx, param_codes ascii h.scope.before ty.param hx]
  constructor
  · rintro (⟨i, e, h1, h2, h3⟩ | ⟨id, results, hw, hy⟩ | ⟨y, hv, hy⟩)
    · exact .param h1 h2 h3
    · refine .returned hw ?_
      cases hy with
      | overwrite h1 h2 h3 => exact .stated h1 h2 h3
      | add h1 h2 h3 => exact .added h1 h2 h3
      | @flow l hr hj hc hn =>
        cases hj with
        | empty h => rw [h] at hc; simp [Plan.Yields] at hc
        | @terminal e q he hq hm =>
          refine .expr hr he ?_ hn
          by_cases hcl : ∃ cid fn args, e.unparen = .call cid fn args
          · obtain ⟨cid, fn, args, hu⟩ := hcl
            have hq' : callExpression env f body fuel cid fn args = .ok q := by simpa [terminal, hu] using hq
            exact .call hu ((callR cid fn args q (.expr ((up hr).1 he) hu) hq').1 ⟨l, hm, hc⟩)
          · exact (terminal_codes ascii (fun cid fn args hu => hcl ⟨cid, fn, args, hu⟩) hq).1 ⟨l, hm, hc⟩
        | @destruct y d' q hv hd hq hm =>
          unfold terminalD at hq
          split at hq
          · cases hq; simp only [Plan.leaves, List.mem_singleton] at hm; rw [hm] at hc; simp [Plan.Yields] at hc
          · rename_i cid fn args hu
            split at hq
            · rename_i n hn'
              split at hq
              · cases hq; simp only [Plan.leaves, List.mem_singleton] at hm; rw [hm] at hc; exact hc.elim
              · rename_i hp
                simp only [ne_eq, Classical.not_not] at hp
                exact .last hr hv hd hu hn' hp ((callR cid fn args q (.last ((up hr).2 hv) hd hu hn' hp) hq).1 ⟨l, hm, hc⟩) hn
            · cases hq; simp only [Plan.leaves, List.mem_singleton] at hm; rw [hm] at hc; exact hc.elim
          · cases hq; simp only [Plan.leaves, List.mem_singleton] at hm; rw [hm] at hc; exact hc.elim
        | outOfScope _ _ _ hm => rw [hm] at hc; exact hc.elim
    · obtain ⟨l, h1, h2⟩ := Plan.yields_leaf hy
      obtain ⟨t, fd, e, i, h1, h2, h3, h4, h5⟩ := (fields_codes (ρ := ρ) ascii h.parsed (ty.oneType _)).1 ⟨l, h1, h2⟩
      exact .field hv h1 h2 h3 h4 h5
  · intro hb
    cases hb with
    | param h1 h2 h3 => exact .inl ⟨_, _, h1, h2, h3⟩
    | @returned id results hw hr =>
      refine .inr (.inl ⟨id, results, hw, ?_⟩)
      cases hr with
      | stated h1 h2 h3 => exact .overwrite h1 h2 h3
      | added h1 h2 h3 => exact .add h1 h2 h3
      | @expr e hr he hc hn =>
        have hok : ∃ q, terminal env f body fuel e = .ok q := by
          unfold terminal
          split
          · exact callExpression_ok h.consts hf _ _ _
          all_goals first | exact ⟨_, rfl⟩ | skip
          split
          · split <;> exact ⟨_, rfl⟩
          · exact ⟨_, rfl⟩
        obtain ⟨q, hq⟩ := hok
        have hg : Gets ρ q c := by
          by_cases hcl : ∃ cid fn args, e.unparen = .call cid fn args
          · obtain ⟨cid, fn, args, hu⟩ := hcl
            have hq' : callExpression env f body fuel cid fn args = .ok q := by simpa [terminal, hu] using hq
            refine (callR cid fn args q (.expr ((up hr).1 he) hu) hq').2 ?_
            cases hc with
            | call h1 h2 => rw [hu] at h1; cases h1; exact h2
            | address h1 | literal h1 | basic h1 => rw [hu] at h1; cases h1
          · exact (terminal_codes ascii (fun cid fn args hu => hcl ⟨cid, fn, args, hu⟩) hq).2 hc
        obtain ⟨l, hm, hy⟩ := hg
        exact .flow hr (.terminal he hq hm) hy hn
      | @last y d cid fn args n hr hv hd hu ht hp hc hn =>
        obtain ⟨q, hq⟩ := callExpression_ok (f := f) h.consts hf cid fn args
        obtain ⟨l, hm, hy⟩ := (callR cid fn args q (.last ((up hr).2 hv) hd hu ht hp) hq).2 hc
        refine .flow hr (.destruct hv hd (q := q) ?_ hm) hy hn
        simp only [terminalD, hu, ht, hp, ne_eq, not_true_eq_false, if_false]; exact hq
    | field hv h1 h2 h3 h4 h5 =>
      obtain ⟨l, hm, hy⟩ := (fields_codes (f := f) (ρ := ρ) ascii h.parsed (ty.oneType _)).2 ⟨_, _, _, _, h1, h2, h3, h4, h5⟩
      exact .inr (.inr ⟨_, hv, Plan.leaf_yields hy (fieldAssignments_noMinus _ _) hm⟩)

end BodyCodes
end Serum
