import Verif.FieldLemmas
import Verif.AnalyseProgram
import Verif.Spec.CrashSpec
import Verif.CallGraphCrash

/-! # When looking at one function body panics -/

namespace Serum
namespace Analyse
open Flow Taint

variable {env : Env} {f : FnId} {body : List Node} {fuel : Nat}

/-- Some step is a panic. -/
def Panics (p : BodyPlan) : Prop := ∃ loc, .panic loc ∈ p.leaves

@[simp] theorem panics_union {p q : BodyPlan} : Panics (.union p q) ↔ Panics p ∨ Panics q := by
  simp only [Panics, Plan.leaves, List.mem_append]
  constructor
  · rintro ⟨l, h | h⟩
    · exact .inl ⟨l, h⟩
    · exact .inr ⟨l, h⟩
  · rintro (⟨l, h⟩ | ⟨l, h⟩)
    · exact ⟨l, .inl h⟩
    · exact ⟨l, .inr h⟩

@[simp] theorem panics_codes {s : CodeSet} : ¬ Panics (.codes s) := by simp [Panics, Plan.leaves]
@[simp] theorem panics_report {d : Diag} : ¬ Panics (.report d) := by simp [Panics, Plan.leaves]
@[simp] theorem panics_call {g : FnId} : ¬ Panics (.call g) := by simp [Panics, Plan.leaves]
@[simp] theorem panics_visit {g : FnId} : ¬ Panics (.visit g) := by simp [Panics, Plan.leaves]
@[simp] theorem panics_panic {l : String} : Panics (.panic l) := ⟨l, by simp [Plan.leaves]⟩
@[simp] theorem panics_reports {ds : List Diag} : ¬ Panics (reports ds) := by
  rintro ⟨l, h⟩
  rw [reports_leaves] at h
  rcases h with h | ⟨d, -, h⟩ <;> cases h
@[simp] theorem panics_founds {x : Founds} : ¬ Panics (founds x) := by simp [founds]
@[simp] theorem panics_foundCode {x : Found} : ¬ Panics (foundCode x) := by simp [foundCode]

/-! ## Fields -/

theorem fieldTarget_of {x : ObjId} {m : Node} {ms : List Node} {i : Ident} :
    FieldOf x (m :: ms) 0 i ↔ (∃ sel, fieldTarget m = some (i, sel)) ∧ i.obj = some x := by
  constructor
  · rintro ⟨sid, sel, h, ho⟩
    simp only [List.getElem?_cons_zero, Option.some.injEq] at h
    exact ⟨⟨sel, fieldTarget_iff.2 ⟨sid, h⟩⟩, ho⟩
  · rintro ⟨⟨sel, h⟩, ho⟩
    obtain ⟨sid, rfl⟩ := fieldTarget_iff.1 h
    exact ⟨sid, sel, rfl, ho⟩

theorem fieldOf_succ {x : ObjId} {m : Node} {ms : List Node} {k : Nat} {i : Ident} :
    FieldOf x (m :: ms) (k + 1) i ↔ FieldOf x ms k i := by simp [FieldOf]

/-- With an error type that has a code field, no panic. -/
theorem fieldAssignment_safe {t : ErrorType} (ht : t.field ≠ none) {x : ObjId} (len : Nat) (rhs : List Node)
    (hne : len ≠ rhs.length → rhs ≠ []) : ∀ (ls : List Node) (n : Nat), n + ls.length = len →
    ¬ Panics (fieldAssignment env f x len rhs (some t) n ls)
  | [], n, _ => by simp [fieldAssignment]
  | m :: ms, n, h => by
    have ih := fieldAssignment_safe (x := x) ht len rhs hne ms (n + 1) (by simp at h; omega)
    simp only [fieldAssignment]
    split
    · exact ih
    · split
      · exact ih
      · simp only [resolveType]
        split
        · rename_i h'; exact absurd h' ht
        · split
          · exact ih
          · split
            · rename_i hl
              split
              · exact absurd rfl (hne hl)
              · simpa using ih
            · rename_i hl
              simp only [ne_eq, Classical.not_not] at hl
              split
              · rename_i hr
                rw [List.getElem?_eq_none_iff] at hr
                simp at h; omega
              · simpa using ih

/-- With an error type without code field, any further field of the variable is a panic. -/
theorem fieldAssignment_fieldless {t : ErrorType} (ht : t.field = none) {x : ObjId} (len : Nat) (rhs : List Node) :
    ∀ (ls : List Node) (n : Nat), Panics (fieldAssignment env f x len rhs (some t) n ls) ↔ ∃ k i, FieldOf x ls k i
  | [], n => by simp [fieldAssignment, FieldOf]
  | m :: ms, n => by
    have ih := fieldAssignment_fieldless (x := x) ht len rhs ms (n + 1)
    have shift : ¬ (∃ i, FieldOf x (m :: ms) 0 i) → ((∃ k i, FieldOf x ms k i) ↔ ∃ k i, FieldOf x (m :: ms) k i) := by
      intro h0
      constructor
      · rintro ⟨k, i, h⟩; exact ⟨k + 1, i, fieldOf_succ.2 h⟩
      · rintro ⟨k, i, h⟩
        cases k with
        | zero => exact absurd ⟨i, h⟩ h0
        | succ k => exact ⟨k, i, fieldOf_succ.1 h⟩
    simp only [fieldAssignment]
    split
    · rename_i hm
      rw [ih]
      refine shift ?_
      rintro ⟨i, h⟩
      obtain ⟨⟨sel, h⟩, -⟩ := fieldTarget_of.1 h
      rw [hm] at h; cases h
    · rename_i i sel hm
      split
      · rename_i ho
        rw [ih]
        refine shift ?_
        rintro ⟨i', h⟩
        obtain ⟨⟨sel', h⟩, ho'⟩ := fieldTarget_of.1 h
        rw [hm] at h; cases h
        exact ho ho'
      · rename_i ho
        simp only [ne_eq, Classical.not_not] at ho
        simp only [resolveType, ht]
        simp only [reduceCtorEq, if_false, panics_panic, true_iff]
        exact ⟨0, i, fieldTarget_of.2 ⟨⟨sel, hm⟩, ho⟩⟩

/-- One assignment. -/
theorem fieldAssignment_panics {x : ObjId} (len : Nat) (rhs : List Node) (hne : len ≠ rhs.length → rhs ≠ []) :
    ∀ (ls : List Node) (n : Nat), n + ls.length = len →
      (Panics (fieldAssignment env f x len rhs none n ls) ↔ TwoFieldsOfFieldless env x ls)
  | [], n, _ => by
    simp only [fieldAssignment, panics_codes, false_iff]
    rintro ⟨k, k', i, i', t, -, ⟨_, _, h, -⟩, -⟩
    simp at h
  | m :: ms, n, hlen => by
    have hlen' : n + 1 + ms.length = len := by simp at hlen; omega
    have ih := fieldAssignment_panics (x := x) len rhs hne ms (n + 1) hlen'
    have shift : (∀ i, FieldOf x (m :: ms) 0 i → env.getErrorTypeForError (env.typeOf i.id) = none) →
        (TwoFieldsOfFieldless env x ms ↔ TwoFieldsOfFieldless env x (m :: ms)) := by
      intro h0
      constructor
      · rintro ⟨k, k', i, i', t, hk, h1, h2, h3, h4, h5⟩
        refine ⟨k + 1, k' + 1, i, i', t, by omega, fieldOf_succ.2 h1, fieldOf_succ.2 h2, h3, h4, fun j i₀ hj h => ?_⟩
        cases j with
        | zero => exact h0 _ h
        | succ j => exact h5 j i₀ (by omega) (fieldOf_succ.1 h)
      · rintro ⟨k, k', i, i', t, hk, h1, h2, h3, h4, h5⟩
        cases k with
        | zero => rw [h0 i h1] at h3; cases h3
        | succ k =>
          cases k' with
          | zero => omega
          | succ k' =>
            exact ⟨k, k', i, i', t, by omega, fieldOf_succ.1 h1, fieldOf_succ.1 h2, h3, h4,
              fun j i₀ hj h => h5 (j + 1) i₀ (by omega) (fieldOf_succ.2 h)⟩
    simp only [fieldAssignment]
    split
    · rename_i hm
      rw [ih]
      refine shift fun i h => ?_
      obtain ⟨⟨sel, h⟩, -⟩ := fieldTarget_of.1 h
      rw [hm] at h; cases h
    · rename_i i sel hm
      split
      · rename_i ho
        rw [ih]
        refine shift fun i' h => ?_
        obtain ⟨⟨sel', h⟩, ho'⟩ := fieldTarget_of.1 h
        rw [hm] at h; cases h
        exact absurd ho' ho
      · rename_i ho
        simp only [ne_eq, Classical.not_not] at ho
        simp only [resolveType]
        have h0 : FieldOf x (m :: ms) 0 i := fieldTarget_of.2 ⟨⟨sel, hm⟩, ho⟩
        have honly : ∀ i', FieldOf x (m :: ms) 0 i' → i' = i := fun i' h => by
          obtain ⟨⟨sel', h⟩, -⟩ := fieldTarget_of.1 h
          rw [hm] at h; cases h; rfl
        cases ht : env.getErrorTypeForError (env.typeOf i.id) with
        | none =>
          simp only
          rw [ih]
          exact shift fun i' h => by rw [honly i' h]; exact ht
        | some t =>
          simp only
          have hno : t.field ≠ none → ¬ TwoFieldsOfFieldless env x (m :: ms) := by
            rintro hf ⟨k, k', j, j', t', hk, h1, h2, h3, h4, h5⟩
            cases k with
            | zero => rw [honly j h1, ht] at h3; cases h3; exact hf h4
            | succ k => have := h5 0 i (by omega) h0; rw [ht] at this; cases this
          split
          · rename_i hf
            simp only [if_true]
            rw [fieldAssignment_fieldless hf]
            constructor
            · rintro ⟨k, i', h⟩
              exact ⟨0, k + 1, i, i', t, by omega, h0, fieldOf_succ.2 h, ht, hf, by omega⟩
            · rintro ⟨k, k', j, j', t', hk, h1, h2, h3, h4, h5⟩
              cases k' with
              | zero => omega
              | succ k' => exact ⟨k', j', fieldOf_succ.1 h2⟩
          · rename_i fd hf
            have hsafe := fieldAssignment_safe (env := env) (f := f) (x := x) (t := t) (by simp [hf]) len rhs hne ms (n + 1) hlen'
            have hno := hno (by simp [hf])
            simp only [hno, iff_false]
            split
            · exact hsafe
            · split
              · rename_i hl
                split
                · exact absurd rfl (hne hl)
                · simpa using hsafe
              · rename_i hl
                simp only [Classical.not_not] at hl
                split
                · rename_i hr
                  rw [List.getElem?_eq_none_iff] at hr
                  simp at hlen; omega
                · simpa using hsafe

theorem fieldAssignments_panics {x : ObjId} : ∀ ns : List Node,
    (∀ id lhs rhs, .assign id lhs rhs ∈ ns → lhs ≠ [] → rhs ≠ []) →
    (Panics (fieldAssignments env f x ns) ↔ ∃ id lhs rhs, .assign id lhs rhs ∈ ns ∧ TwoFieldsOfFieldless env x lhs)
  | [], _ => by simp [fieldAssignments]
  | n :: ns, hok => by
    have ih := fieldAssignments_panics (x := x) ns (fun id lhs rhs h => hok id lhs rhs (by simp [h]))
    unfold fieldAssignments
    split
    · cases ‹_ = _›
    · rename_i id lhs rhs ns' he
      obtain ⟨rfl, rfl⟩ : n = .assign id lhs rhs ∧ ns = ns' := by simpa using he
      rw [panics_union, ih, fieldAssignment_panics lhs.length rhs (fun h hr => hok id lhs rhs (by simp) (fun hl => h (by simp [hl, hr])) hr) lhs 0 (by simp)]
      constructor
      · rintro (h | ⟨id', lhs', rhs', h, h'⟩)
        · exact ⟨id, lhs, rhs, by simp, h⟩
        · exact ⟨id', lhs', rhs', by simp [h], h'⟩
      · rintro ⟨id', lhs', rhs', h, h'⟩
        rcases List.mem_cons.1 h with h | h
        · cases h; exact .inl h'
        · exact .inr ⟨id', lhs', rhs', h, h'⟩
    · rename_i m ns' hno he
      obtain ⟨rfl, rfl⟩ : n = m ∧ ns = ns' := by simpa using he
      rw [ih]
      constructor
      · rintro ⟨id, lhs, rhs, h, h'⟩; exact ⟨id, lhs, rhs, by simp [h], h'⟩
      · rintro ⟨id, lhs, rhs, h, h'⟩
        rcases List.mem_cons.1 h with h | h
        · exact absurd h.symm (hno _ _ _)
        · exact ⟨id, lhs, rhs, h, h'⟩

/-! ## Calls -/

theorem constructorCall_error {r : NodeId} {callee : Option Object} {args : Option (List Node)} :
    (∃ e, extractErrorCodeFromConstructorCall env f r callee args = .error e) ↔ ∃ as, args = some as ∧ TooFewArguments env callee as := by
  unfold extractErrorCodeFromConstructorCall TooFewArguments
  cases callee with
  | none => simp
  | some o =>
    simp only
    cases h : env.facts.ctor o with
    | none => simp [h]
    | some p =>
      cases args with
      | none => simp
      | some as =>
        simp only
        cases ha : as[p]? with
        | none => simp [h]; rw [List.getElem?_eq_none_iff] at ha; exact ha
        | some a =>
          simp [h]
          obtain ⟨hlt, -⟩ := List.getElem?_eq_some_iff.1 ha
          exact hlt

theorem constructorCall_error_panic {r : NodeId} {callee : Option Object} {args : Option (List Node)} {e : Stop}
    (h : extractErrorCodeFromConstructorCall env f r callee args = .error e) : ∃ loc, e = .panic loc := by
  unfold extractErrorCodeFromConstructorCall at h
  repeat' split at h
  all_goals cases h
  exact ⟨_, rfl⟩

theorem lambdaAssignments_calm {call : Node → Option Object → Except Stop BodyPlan} :
    ∀ (es : List Node) {p : BodyPlan}, (∀ e ∈ es, ∀ n o q, e.unparen = n → (∀ x i b a, n ≠ .funcLit x i b a) → call n o = .ok q → ¬ Panics q) →
    lambdaAssignments env name call es = .ok p → ¬ Panics p
  | [], p, _, hp => by simp only [lambdaAssignments] at hp; cases hp; simp
  | e :: es, p, hc, hp => by
    simp only [lambdaAssignments, bind, Except.bind] at hp
    split at hp
    · cases hp
    · rename_i a ha
      split at hp
      · cases hp
      · rename_i b hb
        simp only [pure, Except.pure] at hp
        cases hp
        have ih := lambdaAssignments_calm es (fun e he => hc e (by simp [he])) hb
        simp only [panics_union, ih, or_false]
        unfold lambdaAssignment at ha
        split at ha
        · cases ha; simp
        · rename_i i hi; exact hc e (by simp) _ _ _ hi (by simp) ha
        · rename_i hi; exact hc e (by simp) _ _ _ hi (by simp) ha
        · cases ha; simp

/-- A call panics exactly if it is a constructor call with too few argument expressions. -/
theorem call_panics (hb : BodyOk body) (hfuel : enough env ≤ fuel)
    (hsrc : ∀ v e sid x sel, Source env body v e → e.unparen = .selector sid x sel → Resolved env sid x) :
    ∀ (n : Nat) (fn : Node) (callee : Option Object) (ce : Option (NodeId × List Node)) {p : BodyPlan},
    (∀ sid x sel, fn.unparen = .selector sid x sel → Resolved env sid x) →
    Analyse.call env f body fuel n fn callee ce = .ok p →
    (Panics p ↔ ∃ id as, ce = some (id, as) ∧ TooFewArguments env callee as) := by
  intro n
  induction n with
  | zero => intro _ _ _ p _ hp; simp [Analyse.call] at hp
  | succ n ih =>
    intro fn callee ce p hsel hp
    unfold Analyse.call functionCall lift at hp
    have hctor := constructorCall_error (env := env) (f := f) (r := fn.id) (callee := callee) (args := ce.map Prod.snd)
    have hce : (∃ as, ce.map Prod.snd = some as ∧ TooFewArguments env callee as) ↔
        ∃ id as, ce = some (id, as) ∧ TooFewArguments env callee as := by
      cases ce with
      | none => simp
      | some q =>
        obtain ⟨id, as⟩ := q
        simp only [Option.map_some, Option.some.injEq, Prod.mk.injEq]
        exact ⟨fun ⟨a, h, h'⟩ => ⟨id, a, ⟨rfl, h⟩, h'⟩, fun ⟨_, a, ⟨_, h⟩, h'⟩ => ⟨a, h, h'⟩⟩
    rw [hce] at hctor
    split at hp
    · rename_i ctor hc
      have hno : ¬ ∃ id as, ce = some (id, as) ∧ TooFewArguments env callee as := by
        rw [← hctor]; rintro ⟨e, h⟩; rw [hc] at h; cases h
      simp only [hno, iff_false]
      split at hp
      · cases hp; simp
      · dsimp only at hp
        generalize (if ce.isSome = true ∧ callee = none then extractErrorCodesFromTypeConversion env fn else []) = cc at hp
        split at hp
        · cases hp; simp
        · simp only [bind, Except.bind] at hp
          split at hp
          · cases hp
          · rename_i r hr
            split at hp
            · rename_i q
              simp only [pure, Except.pure] at hp
              cases hp
              simp only [panics_union, panics_reports, false_or]
              unfold calledFunction at hr
              split at hr
              · split at hr
                · split at hr
                  · cases hr
                  · cases hr; simp
                · split at hr
                  · cases hr
                  · split at hr
                    · cases hr; simp
                    · cases hr; simp
                  · simp only [bind, Except.bind] at hr
                    split at hr
                    · cases hr
                    · rename_i a ha
                      simp only [pure, Except.pure] at hr
                      cases hr
                      unfold allAssignedLambdas lift at ha
                      split at ha
                      · rename_i t ht
                        simp only [bind, Except.bind] at ha
                        split at ha
                        · cases ha
                        · rename_i b hb'
                          simp only [pure, Except.pure] at ha
                          cases ha
                          simp only [panics_union, panics_reports, false_or]
                          refine lambdaAssignments_calm _ (fun e he n' o q hn _ hq => ?_) hb'
                          rw [ih n' o none ?_ hq]
                          · simp
                          · intro sid x sel hs
                            obtain ⟨v, e', h1, rfl⟩ := run_source ht e he
                            refine hsrc v e' sid x sel h1 ?_
                            rw [← hn, Node.unparen_unparen, Node.unparen_unparen] at hs
                            exact hs
                      · rename_i loc hl
                        obtain ⟨r, hr⟩ := run_ok_fuel (function := env.func f) (param := none) hb hfuel [] ‹_›
                        rw [hr] at hl; cases hl
                      · cases ha
              · rename_i sid x sel hfn
                dsimp only at hr
                split at hr
                · cases hr; simp
                · rename_i hpkg
                  split at hr
                  · rename_i hs
                    rcases hsel sid x sel hfn with ⟨t, p, h1, h2⟩ | h1
                    · rw [h1] at hpkg
                      simp only [h2] at hpkg
                      cases hpkg
                    · exact absurd hs h1
                  · cases hr
              · cases hr
              · cases hr; simp
            · cases hp; simp
            · cases hp; simp
    · rename_i loc hc
      cases hp
      simp only [panics_panic, true_iff]
      exact hctor.1 ⟨_, hc⟩
    · cases hp

/-- A call visits a literal only if a variable is called. -/
theorem call_visits : ∀ (n : Nat) (fn : Node) (callee : Option Object) (ce : Option (NodeId × List Node)) {p : BodyPlan} {g : FnId},
    Analyse.call env f body fuel n fn callee ce = .ok p → .visit g ∈ p.leaves → IsVariable env fn := by
  intro n fn callee ce p g hp hm
  have hrep : ∀ ds : List Diag, .visit g ∉ (reports ds).leaves := fun ds h => by
    rw [reports_leaves] at h; rcases h with h | ⟨_, -, h⟩ <;> cases h
  have hfc : ∀ x : Found, .visit g ∉ (foundCode x).leaves := fun x h => by
    simp only [foundCode, Plan.leaves, List.mem_append] at h
    rcases h with h | h
    · exact hrep _ h
    · simp at h
  have hfs : ∀ x : Founds, .visit g ∉ (founds x).leaves := fun x h => by
    simp only [founds, Plan.leaves, List.mem_append] at h
    rcases h with h | h
    · exact hrep _ h
    · simp at h
  cases n with
  | zero => simp [Analyse.call] at hp
  | succ n =>
    unfold Analyse.call functionCall lift at hp
    split at hp
    · split at hp
      · cases hp; simp [Plan.leaves, hfc] at hm
      · dsimp only at hp
        generalize (if ce.isSome = true ∧ callee = none then extractErrorCodesFromTypeConversion env fn else []) = cc at hp
        split at hp
        · cases hp; simp [Plan.leaves, hfc] at hm
        · simp only [bind, Except.bind] at hp
          split at hp
          · cases hp
          · rename_i r hr
            split at hp
            · rename_i q
              simp only [pure, Except.pure] at hp
              cases hp
              simp only [Plan.leaves, List.mem_append, hrep, false_or] at hm
              unfold calledFunction at hr
              split at hr
              · rename_i i hi
                split at hr
                · split at hr
                  · cases hr
                  · cases hr; simp [Plan.leaves] at hm
                · rename_i o ho
                  split at hr
                  · cases hr
                  · split at hr
                    · cases hr; exact absurd hm (hfs _)
                    · cases hr; simp [Plan.leaves] at hm
                  · rename_i h1 h2
                    exact ⟨i, o, hi, ho, h1, h2⟩
              · dsimp only at hr
                split at hr
                · cases hr; simp [Plan.leaves] at hm
                · split at hr
                  · cases hr; simp [Plan.leaves] at hm
                  · cases hr
              · cases hr
              · cases hr; simp [Plan.leaves] at hm
            · cases hp; simp [Plan.leaves, hfc] at hm
            · cases hp; simp [Plan.leaves, hfc] at hm
    · cases hp; simp [Plan.leaves] at hm
    · cases hp

theorem fieldAssignment_visits {x : ObjId} {g : FnId} (len : Nat) (rhs : List Node) : ∀ (ls : List Node) (et : Option ErrorType) (n : Nat),
    .visit g ∉ (fieldAssignment env f x len rhs et n ls).leaves
  | [], et, n => by simp [fieldAssignment, Plan.leaves]
  | m :: ms, et, n => by
    have ih := fun et => fieldAssignment_visits (x := x) (g := g) len rhs ms et (n + 1)
    have hfc : ∀ x : Found, .visit g ∉ (foundCode x).leaves := fun x h => by
      simp only [foundCode, Plan.leaves, List.mem_append, reports_leaves] at h
      rcases h with (h | ⟨_, -, h⟩) | h
      · cases h
      · cases h
      · simp at h
    simp only [fieldAssignment]
    repeat' split
    all_goals first | exact ih _ | simp [Plan.leaves, hfc, ih]

theorem fieldAssignments_visits {x : ObjId} {g : FnId} : ∀ ns : List Node, .visit g ∉ (fieldAssignments env f x ns).leaves
  | [] => by simp [fieldAssignments, Plan.leaves]
  | n :: ns => by
    have ih := fieldAssignments_visits (x := x) (g := g) ns
    unfold fieldAssignments
    split
    · simp [Plan.leaves]
    · rename_i id lhs rhs ns' he
      obtain ⟨rfl, rfl⟩ : n = .assign id lhs rhs ∧ ns = ns' := by simpa using he
      simp only [Plan.leaves, List.mem_append, ih, or_false]
      exact fieldAssignment_visits _ _ _ _ _
    · rename_i m ns' hno he
      obtain ⟨rfl, rfl⟩ : n = m ∧ ns = ns' := by simpa using he
      exact ih

/-- An expression by itself. -/
theorem terminal_panics (hb : BodyOk body) (hfuel : enough env ≤ fuel)
    (hsrc : ∀ v e sid x sel, Source env body v e → e.unparen = .selector sid x sel → Resolved env sid x)
    {e : Node} (hcall : ∀ id fn args sid x sel, e.unparen = .call id fn args → fn.unparen = .selector sid x sel → Resolved env sid x)
    {q : BodyPlan} (hq : terminal env f body fuel e = .ok q) :
    Panics q ↔ ∃ id fn args, e.unparen = .call id fn args ∧ TooFewArguments env (env.callee id) args := by
  unfold terminal at hq
  split at hq
  · rename_i id fn args he
    rw [call_panics hb hfuel hsrc _ fn _ _ (fun sid x sel h => hcall id fn args sid x sel he h) hq]
    constructor
    · rintro ⟨id', as, h, h'⟩; cases h; exact ⟨id, fn, args, he, h'⟩
    · rintro ⟨id', fn', as, h, h'⟩; rw [he] at h; cases h; exact ⟨id, args, rfl, h'⟩
  all_goals
    rename_i he
    have hno : ¬ ∃ id fn args, e.unparen = .call id fn args ∧ TooFewArguments env (env.callee id) args := by
      rintro ⟨id, fn, args, h, -⟩
      first | (rw [he] at h; cases h) | exact (‹∀ (a : NodeId) (b : Node) (c : List Node), e.unparen = Node.call a b c → False› _ _ _ h)
    rw [iff_false_intro hno, iff_false]
    first
      | (repeat' split at hq) <;> (cases hq; simp)
      | (cases hq; simp)

/-- A destructuring assignment by itself. -/
theorem terminalD_panics (hb : BodyOk body) (hfuel : enough env ≤ fuel)
    (hsrc : ∀ v e sid x sel, Source env body v e → e.unparen = .selector sid x sel → Resolved env sid x)
    {d : Destruct} (hcall : ∀ id fn args n sid x sel, d.source.unparen = .call id fn args → env.typeOf fn.id = .signature n →
      d.position + 1 = env.sigResults n → fn.unparen = .selector sid x sel → Resolved env sid x)
    {q : BodyPlan} (hq : terminalD env f body fuel d = .ok q) :
    Panics q ↔ UnsupportedDestructuring env d ∨ ∃ id fn args n, d.source.unparen = .call id fn args ∧ env.typeOf fn.id = .signature n ∧
      d.position + 1 = env.sigResults n ∧ TooFewArguments env (env.callee id) args := by
  unfold terminalD at hq
  unfold UnsupportedDestructuring
  split at hq
  · rename_i he
    cases hq
    simp [he]
  · rename_i id fn args he
    simp only [he]
    split at hq
    · rename_i n hn
      have h1 : ¬ ∀ n, env.typeOf fn.id ≠ .signature n := fun h => h n hn
      split at hq
      · rename_i hp
        cases hq
        simp only [panics_report, false_iff]
        rintro (⟨-, h⟩ | ⟨_, _, _, _, h, h', h'', -⟩)
        · exact h1 (h _ _ _ rfl)
        · cases h; rw [hn] at h'; cases h'; exact hp h''
      · rename_i hp
        simp only [ne_eq, Classical.not_not] at hp
        rw [call_panics hb hfuel hsrc _ fn _ _ (fun sid x sel h => hcall id fn args n sid x sel he hn hp h) hq]
        constructor
        · rintro ⟨id', as, h, h'⟩; cases h; exact .inr ⟨id, fn, args, n, rfl, hn, hp, h'⟩
        · rintro (⟨-, h⟩ | ⟨_, _, _, _, h, h', h'', h3⟩)
          · exact absurd (h _ _ _ rfl) h1
          · cases h; exact ⟨id, args, rfl, h3⟩
    · rename_i hn
      cases hq
      simp only [panics_panic, true_iff]
      exact .inl ⟨by simp, fun _ _ _ h n hn' => by cases h; exact hn n hn'⟩
  · rename_i h1 h2
    cases hq
    simp only [panics_panic, true_iff]
    exact .inl ⟨h1, fun id fn args h => absurd h (h2 id fn args)⟩

/-! ## A body -/

/-- The panics of a function body, exactly. -/
theorem Regular.panics_iff (h : Regular env f body) (hc : Checked env f body) (hf : bound env ≤ fuel) :
    (plan env fuel f).panics = true ↔ Crashes env f body := by
  obtain ⟨x, hx⟩ := h.constructor hf
  have hl := fun loc => h.leaves hf hx (l := .panic loc) (by simp)
  rw [Plan.panics_iff]
  have hw : ∀ x : ObjId, (Panics (fieldAssignments env f x (Node.inspectList intoFields body)) ↔
      ∃ id lhs rhs, WithinList outsideAssignments (.assign id lhs rhs) body ∧ TwoFieldsOfFieldless env x lhs) := by
    intro x
    rw [fieldAssignments_panics]
    · simp only [mem_inspectList, intoFields_eq]
    · intro id lhs rhs hm
      rw [mem_inspectList, intoFields_eq] at hm
      exact h.parsed.assigns id lhs rhs (Props.ErrorTypes.occurs_of_within hm)
  have hbe := bound_enough hf
  constructor
  · rintro ⟨loc, hm⟩
    cases (hl loc).1 hm with
    | param hm => exact absurd ⟨loc, hm⟩ (panics_founds (x := x))
    | just hj =>
      cases hj with
      | empty h => cases h
      | terminal he hq hm =>
        obtain ⟨id, fn, args, h1, h2⟩ := (terminal_panics h.parsed hbe hc.assigned
          (fun id fn args sid x sel h1 h2 => hc.called id fn args sid x sel (.expr he h1) h2) hq).1 ⟨loc, hm⟩
        exact .arguments (.expr he h1) h2
      | destruct hv hd hq hm =>
        rcases (terminalD_panics h.parsed hbe hc.assigned
          (fun id fn args n sid x sel h1 h2 h3 h4 => hc.called id fn args sid x sel (.last hv hd h1 h2 h3) h4) hq).1 ⟨loc, hm⟩ with
          h1 | ⟨id, fn, args, n, h1, h2, h3, h4⟩
        · exact .destructuring hv hd h1
        · exact .arguments (.last hv hd h1 h2 h3) h4
      | outOfScope _ _ _ h => cases h
    | annot ha =>
      cases ha with
      | overwrite _ _ _ h => cases h
      | add _ _ _ h => cases h
      | diag _ _ h => cases h
      | @bare id results loc' hr he _ =>
        cases results with
        | cons r rs => simp [resultExpression] at he
        | nil =>
          obtain ⟨fields, field, i, h1, h2, h3⟩ := hc.bare id hr
          simp only [resultExpression, h1, h2, h3] at he
          cases he
    | field hv hm =>
      obtain ⟨id, lhs, rhs, h1, h2⟩ := (hw _).1 ⟨loc, hm⟩
      exact .fields hv h1 h2
  · intro hcr
    have fin : ∀ q : BodyPlan, Panics q → (∀ l ∈ q.leaves, l ≠ .codes [] → l ∈ (plan env fuel f).leaves) →
        ∃ loc, .panic loc ∈ (plan env fuel f).leaves := fun q ⟨loc, h⟩ hq => ⟨loc, hq _ h (by simp)⟩
    cases hcr with
    | arguments he ht =>
      rename_i id fn args
      cases he with
      | @expr e he hu =>
        have hok : ∃ q, terminal env f body fuel e = .ok q := by
          unfold terminal; rw [hu]; exact callExpression_ok h.consts hf id fn args
        obtain ⟨q, hq⟩ := hok
        refine fin q ?_ fun l hm hn => h.errExpr hf he hq hm hn
        exact (terminal_panics h.parsed hbe hc.assigned
          (fun id fn args sid x sel h1 h2 => hc.called id fn args sid x sel (.expr he h1) h2) hq).2 ⟨id, fn, args, hu, ht⟩
      | last hv hd h1 h2 h3 =>
        rename_i d n
        have hok : ∃ q, terminalD env f body fuel d = .ok q := by
          unfold terminalD; rw [h1]; simp only [h2]; rw [if_neg (by simp [h3])]; exact callExpression_ok h.consts hf id fn args
        obtain ⟨q, hq⟩ := hok
        refine fin q ?_ fun l hm hn => h.destruct hf hv hd hq hm hn
        exact (terminalD_panics h.parsed hbe hc.assigned
          (fun id fn args n sid x sel h1 h2 h3 h4 => hc.called id fn args sid x sel (.last hv hd h1 h2 h3) h4) hq).2
          (.inr ⟨id, fn, args, n, h1, h2, h3, ht⟩)
    | destructuring hv hd hu =>
      rename_i d
      have hok : ∃ q, terminalD env f body fuel d = .ok q := by
        unfold terminalD
        split
        · exact ⟨_, rfl⟩
        · split
          · split
            · exact ⟨_, rfl⟩
            · exact callExpression_ok h.consts hf _ _ _
          · exact ⟨_, rfl⟩
        · exact ⟨_, rfl⟩
      obtain ⟨q, hq⟩ := hok
      refine fin q ?_ fun l hm hn => h.destruct hf hv hd hq hm hn
      exact (terminalD_panics h.parsed hbe hc.assigned
        (fun id fn args n sid x sel h1 h2 h3 h4 => hc.called id fn args sid x sel (.last hv hd h1 h2 h3) h4) hq).2 (.inl hu)
    | fields hv hw' ht =>
      rename_i x id lhs rhs
      obtain ⟨loc, hm⟩ := (hw x).2 ⟨id, lhs, rhs, hw', ht⟩
      exact ⟨loc, (hl loc).2 (.field hv hm)⟩

/-- Without calls of variables in error position no literal is visited. -/
theorem Regular.no_visits (h : Regular env f body) (hf : bound env ≤ fuel)
    (hv : ∀ id fn args, Props.Calls.ErrCall env f body id fn args → ¬ IsVariable env fn) : (plan env fuel f).visits = [] := by
  obtain ⟨x, hx⟩ := h.constructor hf
  refine List.eq_nil_iff_forall_not_mem.2 fun g hg => ?_
  rw [Plan.mem_visits] at hg
  have hrep : ∀ ds : List Diag, .visit g ∉ (reports ds).leaves := fun ds h => by
    rw [reports_leaves] at h; rcases h with h | ⟨_, -, h⟩ <;> cases h
  have hfs : ∀ x : Founds, .visit g ∉ (founds x).leaves := fun x h => by
    simp only [founds, Plan.leaves, List.mem_append] at h
    rcases h with h | h
    · exact hrep _ h
    · simp at h
  cases (h.leaves hf hx (l := .visit g) (by simp)).1 hg with
  | param hm => exact hfs _ hm
  | just hj =>
    cases hj with
    | empty h => cases h
    | terminal he hq hm =>
      unfold terminal at hq
      split at hq
      · rename_i id fn args hu
        exact hv id fn args (.expr he hu) (call_visits _ _ _ _ hq hm)
      all_goals
        first
          | (repeat' split at hq) <;> (cases hq; first | exact hfs _ hm | simp [Plan.leaves] at hm)
          | (cases hq; first | exact hfs _ hm | simp [Plan.leaves] at hm)
    | destruct hx' hd hq hm =>
      unfold terminalD at hq
      split at hq
      · cases hq; simp [Plan.leaves] at hm
      · rename_i id fn args hu
        split at hq
        · rename_i n hn
          split at hq
          · cases hq; simp [Plan.leaves] at hm
          · rename_i hp
            simp only [ne_eq, Classical.not_not] at hp
            exact hv id fn args (.last hx' hd hu hn hp) (call_visits _ _ _ _ hq hm)
        · cases hq; simp [Plan.leaves] at hm
      · cases hq; simp [Plan.leaves] at hm
    | outOfScope _ _ _ h => cases h
  | annot ha =>
    cases ha with
    | overwrite _ _ _ h => cases h
    | add _ _ _ h => cases h
    | diag _ _ h => cases h
    | bare _ _ h => cases h
  | field _ hm => exact fieldAssignments_visits _ hm

end Analyse
end Serum
