import Verif.Props.ImportsSession

/-!
# C63 — which packages are analysed together

A package gets the same reports whatever other packages are analysed with it, and in whatever order.
-/

namespace Serum.Props.Part
open Serum RunSpec SessionSpec Session ImportSpec Imports Run

section
variable {strict : Bool} {imports imports' : Member → Member → Prop} {visible visible' : Member → Object → Prop} {ms ms' : List Member}

/-- What a package of `ms` imports, directly or indirectly, is also in `ms'`, if the package itself is. -/
def Complete (imports : Member → Member → Prop) (ms ms' : List Member) : Prop :=
  ∀ m ∈ ms, (∃ m' ∈ ms', SamePackage m m') → ∀ q, Below imports q m → ∃ q' ∈ ms', SamePackage q q'

theorem belongs_same {m m' : Member} (he : SamePackage m m') {o : Object} (h : Belongs m.pkg o) : Belongs m'.pkg o := by
  rw [same_given he]
  cases h with
  | func h1 h2 => exact .func h1 h2
  | method h1 h2 h3 => exact .method h1 h2 h3
  | interface h1 h2 => exact .interface h1 h2
  | type h1 h2 => exact .type h1 h2

private theorem typeIn_given {P : Package} {F : Facts} {T : GoType} (h : TypeIn (P.withImports F) T) : TypeIn P T := by
  induction h with
  | expr n => exact .expr n
  | underlying _ h ih => exact .underlying ih h
  | pointer _ ih => exact .pointer ih
  | slice _ ih => exact .slice ih
  | array _ ih => exact .array ih
  | key _ ih => exact .key ih
  | value _ ih => exact .value ih
  | chan _ ih => exact .chan ih
  | field _ h ih => exact .field ih h
  | param _ h ih => exact .param ih h
  | component _ h ih => exact .component ih h

theorem meets_same {m m' : Member} (he : SamePackage m m') {o : Object} (h : Meets m'.pkg o) : Meets m.pkg o := by
  rw [same_given he] at h
  cases h with
  | callee h => exact .callee h
  | uses h => exact .uses h
  | selection h => exact .selection h
  | own h => exact .own h
  | type h1 h2 => exact .type (typeIn_given h1) h2
  | method h1 h2 => exact .method (typeIn_given h1) h2

private theorem below_of {q m : Member} {o : Object} (h : Passes imports visible q o m) : Below imports q m := by
  induction h with
  | direct hi _ => exact .direct hi
  | through hi _ _ ih => exact .through hi ih

private theorem has_same {a b : Facts} {o : Object} (h : SameAt a b o) (x : Fact) : a.Has o x ↔ b.Has o x := by
  cases x <;> simp only [Facts.Has, h.codes, h.ctor, h.errorType, h.interface]

/-- **C63.** Two analyses of parts of a program, in which each package is analysed with the same order of maps, report the same about each package in
both parts, and record the same facts for what it declares and what it comes across. -/
theorem part_of_program (s : Session strict imports visible ms) (w : Packages ms) (s' : Session strict imports' visible' ms') (w' : Packages ms')
    (hr : ∀ m ∈ ms, ∀ o, Meets m.pkg o → Reachable imports visible ms m o)
    (hr' : ∀ m ∈ ms', ∀ o, Meets m.pkg o → Reachable imports' visible' ms' m o)
    (hc : Complete imports ms ms') (hc' : ∀ m' ∈ ms', (∃ m ∈ ms, SamePackage m m') → ∀ q', Below imports' q' m' → ∃ q ∈ ms, SamePackage q q')
    (hs : ∀ m ∈ ms, ∀ m' ∈ ms', SamePackage m m' → m'.schedule = m.schedule) :
    ∀ m ∈ ms, ∀ m' ∈ ms', SamePackage m m' →
      (∃ facts, m'.out = { m.out with facts := facts }) ∧ ∀ o, Meets m.pkg o ∨ Belongs m.pkg o → SameAt m.out.facts m'.out.facts o := by
  have key : ∀ (n : Nat) {pre m post}, pre.length = n → ms = pre ++ m :: post → ∀ m' ∈ ms', SamePackage m m' →
      (∃ facts, m'.out = { m.out with facts := facts }) ∧ ∀ o, Meets m.pkg o ∨ Belongs m.pkg o → SameAt m.out.facts m'.out.facts o := by
    intro n
    induction n using Nat.strongRecOn with
    | _ n ih =>
      intro pre m post hn e m' hm' he
      have hm : m ∈ ms := by rw [e]; simp
      have hR' : ∀ o, Meets m.pkg o → Reachable imports' visible' ms' m' o := fun o ho => hr' m' hm' o (meets_same he.symm ho)
      refine upgraded_dependencies s w s' w' hm hm' he (hs m hm m' hm' he) (hr m hm) hR' fun o ho x => ?_
      -- the owner's facts are the same, as it comes earlier
      have owner : ∀ {q q'}, q ∈ ms → q' ∈ ms' → SamePackage q q' → q ≠ m → Belongs q.pkg o → (q.out.facts.Has o x ↔ q'.out.facts.Has o x) := by
        intro q q' hq hq' heq hne hb
        have hbelow := below_mem s (below_of (hr m hm o ho q hq hne hb)) e
        obtain ⟨a, b, hab⟩ := List.append_of_mem hbelow
        have hlen : a.length < n := by rw [← hn, hab]; simp
        exact has_same ((ih a.length hlen (post := b ++ m :: post) rfl (by rw [e, hab]; simp) q' hq' heq).2 o (.inr hb)) x
      constructor
      · rintro ⟨q, hq, hne, hb, hx⟩
        obtain ⟨q', hq', heq⟩ := hc m hm ⟨m', hm', he⟩ q (below_of (hr m hm o ho q hq hne hb))
        refine ⟨q', hq', ?_, belongs_same heq hb, (owner hq hq' heq hne hb).1 hx⟩
        rintro rfl
        exact hne (unique w hq hm hb (belongs_same he.symm (belongs_same heq hb)))
      · rintro ⟨q', hq', hne, hb, hx⟩
        obtain ⟨q, hq, heq⟩ := hc' m' hm' ⟨m, hm, he⟩ q' (below_of (hR' o ho q' hq' hne hb))
        have hbq := belongs_same heq.symm hb
        have hqm : q ≠ m := by
          rintro rfl
          exact hne (unique w' hq' hm' hb (belongs_same he hbq))
        exact ⟨q, hq, hqm, hbq, (owner hq hq' heq hqm hbq).2 hx⟩
  intro m hm
  obtain ⟨pre, post, e⟩ := List.append_of_mem hm
  exact key _ rfl e
end

/-! ## Example

The program of `Props/LinkedExample.lean`, alone and together with another package:

```go
package c

// Errors:
//   - a-error -- always
func Fail() error { return a.New("a-error") }
```
-/

namespace Example
open Linked.Example Imports.Upgrade

def cPkg : Package :=
  { bPkg with
    env := { bEnv with
      funcs := [⟨400, some ⟨401, b!"Fail", none⟩, ⟨[], some [⟨[], 402⟩], 10⟩, some Linked.Example.bodyGet, 20, 100⟩]
      callee := fun n => if n = 81 then some 71 else none
      typeOf := fun n => if n = 82 then .signature 1 else if n = 402 then .named 9 else if n = 81 then .pointer (.named 7) else .string
      funcObj := fun f => 60 + f }
    decls := { bPkg.decls with name := fun _ => b!"Fail", recv := fun _ => none }
    funcs := [0]
    specs := []
    top := [.func 0] }

def cOut : Outcome :=
  match runVerify cPkg schedule false with
  | .ok out => out
  | .error _ => ⟨cPkg.env.facts, [], [], [], [], [], [], []⟩

theorem c_ran : runVerify cPkg schedule false = .ok cOut := rfl

def c : Member := ⟨cPkg, schedule, cOut⟩

theorem c_objects : Objects (alone cPkg) where
  funcs := by decide
  distinct := fun f _ g _ h => Nat.add_left_cancel (n := 60) h
  methods := fun d hd => (nomatch hd)
  apart := fun f hf d hd => (nomatch hd)
  imported := fun _ _ => ⟨rfl, rfl⟩
  importedMethods := fun d hd => (nomatch hd)
  interfaces := fun d hd => (nomatch hd)
  importedInterfaces := fun d hd => (nomatch hd)
  importedTables := fun o ms h => by cases h

theorem c_types : Types (alone cPkg) := ⟨fun s hs => (nomatch hs), List.Pairwise.nil, fun s hs => (nomatch hs)⟩

theorem c_belongs {o : Object} (h : Belongs cPkg o) : o = 60 := by
  cases h with
  | func hf he =>
    simp only [cPkg, List.mem_singleton] at hf
    subst hf; exact he.symm
  | method hd => cases hd
  | interface hd => cases hd
  | type hs => cases hs

def all : List Member := [a, c, b]
def imports₃ (m q : Member) : Prop := (m = b ∨ m = c) ∧ q = a

theorem b_ne_c : b ≠ c := fun h => by
  have : b.pkg.funcs = c.pkg.funcs := by rw [h]
  cases this

theorem a_ne_c : a ≠ c := fun h => by
  have : a.pkg.funcs = c.pkg.funcs := by rw [h]
  cases this

theorem session₃ : Session false imports₃ Linked.Example.visible all where
  fair := by
    intro m hm
    simp only [all, List.mem_cons, List.not_mem_nil, or_false] at hm
    rcases hm with rfl | rfl | rfl <;> exact schedule_fair
  ran := by
    intro m hm
    simp only [all, List.mem_cons, List.not_mem_nil, or_false] at hm
    rcases hm with rfl | rfl | rfl
    · exact a_ran
    · exact c_ran
    · exact b_ran
  order := by
    rintro pre m post e q ⟨hm, rfl⟩
    match pre, e with
    | [], e =>
      simp only [all, List.nil_append, List.cons.injEq] at e
      rcases hm with rfl | rfl
      · exact absurd e.1 a_ne_b
      · exact absurd e.1 a_ne_c
    | p :: pre, e => simp only [all, List.cons_append, List.cons.injEq] at e; simp [e.1]
  known := by
    intro m hm o x hx
    simp only [all, List.mem_cons, List.not_mem_nil, or_false] at hm
    rcases hm with rfl | rfl | rfl
    · cases x <;> cases hx
    · exact ⟨a, ⟨.inr rfl, rfl⟩, fun y => a_facts o y⟩
    · exact ⟨a, ⟨.inl rfl, rfl⟩, fun y => a_facts o y⟩
  passed := by
    rintro m hm q ⟨rfl | rfl, rfl⟩ o x _ hx
    · exact (a_facts o x).2 hx
    · exact (a_facts o x).2 hx

theorem packages₃ : Packages all where
  objects := by
    intro m hm
    simp only [all, List.mem_cons, List.not_mem_nil, or_false] at hm
    rcases hm with rfl | rfl | rfl
    · exact packages.objects a (by simp [Linked.Example.ms])
    · exact c_objects
    · exact packages.objects b (by simp [Linked.Example.ms])
  types := by
    intro m hm
    simp only [all, List.mem_cons, List.not_mem_nil, or_false] at hm
    rcases hm with rfl | rfl | rfl
    · exact packages.types a (by simp [Linked.Example.ms])
    · exact c_types
    · exact packages.types b (by simp [Linked.Example.ms])
  interfaces := by
    intro m hm
    simp only [all, List.mem_cons, List.not_mem_nil, or_false] at hm
    rcases hm with rfl | rfl | rfl
    · exact a_program
    · exact ⟨by decide, by decide, ⟨fun _ => 0, fun d hd => (nomatch hd)⟩⟩
    · exact b_program
  apart := by
    simp only [all, List.pairwise_cons, List.mem_cons, List.not_mem_nil, or_false, false_implies, implies_true, List.Pairwise.nil, and_true,
      forall_eq_or_imp, forall_eq]
    refine ⟨⟨fun o h1 h2 => ?_, fun o h1 h2 => ?_⟩, fun o h1 h2 => ?_⟩
    · have h1 := a_belongs h1
      rw [c_belongs h2] at h1; revert h1; decide
    · have h1 := a_belongs h1
      have h2 := b_belongs h2
      simp only [List.mem_cons, List.not_mem_nil, or_false] at h1 h2
      rcases h2 with rfl | rfl | rfl <;> simp at h1
    · have h2 := b_belongs h2
      rw [c_belongs h1] at h2; revert h2; decide

/-- The types that `a` comes across are built from types of `a`, `error` and predeclared types. -/
theorem types_a {T : GoType} (h : TypeIn aPkg T) : T ∈ [.signature 2, .named 9, .named 20, .named 7, .pointer (.named 7), .string, .struct 7,
    .interface 1, .interface 2] := by
  induction h with
  | expr n =>
    show (if n = 3 then .signature 2 else if n = 2 ∨ n = 104 ∨ n = 67 then .named 9 else if n = 4 ∨ n = 102 ∨ n = 103 then .named 20
      else if n = 42 then .named 7 else if n = 41 ∨ n = 109 ∨ n = 72 then .pointer (.named 7) else GoType.string) ∈ _
    split
    · decide
    · split
      · decide
      · split
        · decide
        · split
          · decide
          · split <;> decide
  | underlying _ hn ih =>
    simp only [List.mem_cons, List.not_mem_nil, or_false] at ih
    rcases ih with rfl | rfl | rfl | rfl | rfl | rfl | rfl | rfl | rfl <;> cases hn <;> decide
  | pointer _ ih => simp at ih; subst ih; decide
  | slice _ ih => simp at ih
  | array _ ih => simp at ih
  | key _ ih => simp at ih
  | value _ ih => simp at ih
  | chan _ ih => simp at ih
  | field _ hf ih =>
    simp at ih
    subst ih
    have := List.mem_singleton.1 (show _ ∈ [(b!"TheCode", GoType.string)] from hf)
    subst this; decide
  | param _ hp ih =>
    simp at ih
    subst ih
    exact absurd hp (by simp [aPkg, info])
  | component _ hc ih => simp at ih

/-- Methods of these types belong to `a`. -/
theorem meets_a {o : Object} (h : Meets aPkg o) : o ∈ [90, 70, 71, 72, 9, 20, 7] := by
  cases h with
  | callee h =>
    rename_i n
    have h : (if n = 2 then some 90 else none) = some o := h
    split at h <;> cases h; decide
  | uses h => cases h
  | selection h =>
    rename_i n T
    have h : (if n = 3 then some (GoType.named 20, 90) else none) = some (T, o) := h
    split at h <;> cases h; decide
  | own h =>
    rename_i f
    match f with
    | 0 => decide
    | 1 => decide
    | 2 => decide
    | f + 3 => simp [aPkg, aEnv, Env.func] at h
  | type hT hn =>
    have := types_a hT
    simp only [List.mem_cons, List.not_mem_nil, or_false] at this
    rcases this with rfl | rfl | rfl | rfl | rfl | rfl | rfl | rfl | rfl <;> cases hn <;> decide
  | method hT hq =>
    rename_i T m
    have := types_a hT
    have hq : U.methods T m = some o ∨ U.methods (.pointer T) m = some o := hq
    unfold U at hq
    simp only [List.mem_cons, List.not_mem_nil, or_false] at this
    rcases this with rfl | rfl | rfl | rfl | rfl | rfl | rfl | rfl | rfl <;> simp at hq <;> (try (rw [← hq.2]; decide))

theorem reachable_a {ms : List Member} {imports : Member → Member → Prop} {visible : Member → Object → Prop} (hms : ∀ q ∈ ms, q = a ∨ q = b ∨ q = c)
    {o : Object} (h : Meets aPkg o) : Reachable imports visible ms a o := by
  intro q hq hne hb
  exfalso
  have := meets_a h
  rcases hms q hq with rfl | rfl | rfl
  · exact hne rfl
  · have hb := b_belongs hb
    simp only [List.mem_cons, List.not_mem_nil, or_false] at hb
    rcases hb with rfl | rfl | rfl <;> revert this <;> decide
  · rw [c_belongs hb] at this; revert this; decide

/-- The types that `c` comes across. -/
theorem types_c {T : GoType} (h : TypeIn cPkg T) : T ∈ [.signature 1, .named 9, .pointer (.named 7), .string, .named 7, .struct 7, .interface 2] := by
  induction h with
  | expr n =>
    show (if n = 82 then .signature 1 else if n = 402 then .named 9 else if n = 81 then .pointer (.named 7) else GoType.string) ∈ _
    split
    · decide
    · split
      · decide
      · split <;> decide
  | underlying _ hn ih =>
    simp only [List.mem_cons, List.not_mem_nil, or_false] at ih
    rcases ih with rfl | rfl | rfl | rfl | rfl | rfl | rfl <;> cases hn <;> decide
  | pointer _ ih => simp at ih; subst ih; decide
  | slice _ ih => simp at ih
  | array _ ih => simp at ih
  | key _ ih => simp at ih
  | value _ ih => simp at ih
  | chan _ ih => simp at ih
  | field _ hf ih =>
    simp at ih
    subst ih
    have := List.mem_singleton.1 (show _ ∈ [(b!"TheCode", GoType.string)] from hf)
    subst this; decide
  | param _ hp ih =>
    simp at ih
    subst ih
    have := List.mem_singleton.1 (show _ ∈ [GoType.string] from hp)
    subst this; decide
  | component _ hc ih => simp at ih

theorem meets_c {o : Object} (h : Meets cPkg o) : o ∈ [71, 60, 9, 7, 72] := by
  cases h with
  | callee h =>
    rename_i n
    have h : (if n = 81 then some 71 else none) = some o := h
    split at h <;> cases h; decide
  | uses h => cases h
  | selection h => cases h
  | own h =>
    rename_i f
    match f with
    | 0 => decide
    | f + 1 => simp [cPkg, Env.func] at h
  | type hT hn =>
    have := types_c hT
    simp only [List.mem_cons, List.not_mem_nil, or_false] at this
    rcases this with rfl | rfl | rfl | rfl | rfl | rfl | rfl <;> cases hn <;> decide
  | method hT hq =>
    rename_i T m
    have := types_c hT
    have hq : U.methods T m = some o ∨ U.methods (.pointer T) m = some o := hq
    unfold U at hq
    simp only [List.mem_cons, List.not_mem_nil, or_false] at this
    rcases this with rfl | rfl | rfl | rfl | rfl | rfl | rfl <;> simp at hq <;> (try (rw [← hq.2]; decide))

theorem reachable₃ : ∀ m ∈ all, ∀ o, Meets m.pkg o → Reachable imports₃ Linked.Example.visible all m o := by
  intro m hm o ho q hq hne hb
  simp only [all, List.mem_cons, List.not_mem_nil, or_false] at hm hq
  rcases hm with rfl | rfl | rfl
  · exact reachable_a (ms := all) (fun q hq => by simp [all] at hq; grind) ho q (by simp [all]; exact hq) hne hb
  · rcases hq with rfl | rfl | rfl
    · exact .direct ⟨.inr rfl, rfl⟩ trivial
    · exact absurd rfl hne
    · have hb := b_belongs hb
      have := meets_c ho
      simp only [List.mem_cons, List.not_mem_nil, or_false] at hb
      exfalso
      rcases hb with rfl | rfl | rfl <;> revert this <;> decide
  · rcases hq with rfl | rfl | rfl
    · exact .direct ⟨.inl rfl, rfl⟩ trivial
    · have := meets_b ho
      exfalso
      rw [c_belongs hb] at this; revert this; decide
    · exact absurd rfl hne

theorem reachable₂ : ∀ m ∈ Linked.Example.ms, ∀ o, Meets m.pkg o → Reachable Linked.Example.imports Linked.Example.visible Linked.Example.ms m o := by
  intro m hm o ho
  simp only [Linked.Example.ms, List.mem_cons, List.not_mem_nil, or_false] at hm
  rcases hm with rfl | rfl
  · exact reachable_a (fun q hq => by simp [Linked.Example.ms] at hq; grind) ho
  · exact Upgrade.reachable o

theorem same_funcs {m m' : Member} (h : SamePackage m m') : m.pkg.funcs = m'.pkg.funcs := by
  have : (alone m.pkg).funcs = (alone m'.pkg).funcs := by rw [h]
  exact this

theorem same_only {m m' : Member} (hm : m ∈ Linked.Example.ms) (hm' : m' ∈ all) (h : SamePackage m m') : m = m' := by
  have h := same_funcs h
  simp only [all, Linked.Example.ms, List.mem_cons, List.not_mem_nil, or_false] at hm hm'
  rcases hm with rfl | rfl <;> rcases hm' with rfl | rfl | rfl <;> first | rfl | cases h

theorem below_a {imports : Member → Member → Prop} (hi : ∀ m q, imports m q → q = a) {m q : Member} (h : Below imports q m) : q = a := by
  induction h with
  | direct h => exact hi _ _ h
  | through _ _ ih => exact ih

/-- The hypotheses are met: `a` and `b` get the same reports without `c`. -/
theorem without_c : ∀ m ∈ Linked.Example.ms, ∀ m' ∈ all, SamePackage m m' →
    (∃ facts, m'.out = { m.out with facts := facts }) ∧ ∀ o, Meets m.pkg o ∨ Belongs m.pkg o → SameAt m.out.facts m'.out.facts o := by
  refine part_of_program session packages session₃ packages₃ reachable₂ reachable₃ ?_ ?_ ?_
  · intro m hm _ q hq
    rw [below_a (fun _ _ h => h.2) hq]
    exact ⟨a, by simp [all], rfl⟩
  · intro m hm _ q hq
    rw [below_a (fun _ _ h => h.2) hq]
    exact ⟨a, by simp [Linked.Example.ms], rfl⟩
  · intro m hm m' hm' h
    rw [same_only hm hm' h]

end Example
end Serum.Props.Part
