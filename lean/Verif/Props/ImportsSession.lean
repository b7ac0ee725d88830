import Verif.Props.Imports
import Verif.Props.SessionSame

/-!
# C62 in a program

A package that has not changed need not be analysed again when packages it uses are replaced by other versions, if these record the same for
what the package comes across.
-/

namespace Serum.Props.Imports
open Serum RunSpec SessionSpec Session ImportSpec Run

section
variable {strict : Bool} {imports imports' : Member → Member → Prop} {visible visible' : Member → Object → Prop} {ms ms' : List Member}

/-- A package other than `m` declares the object, and has recorded this for it. -/
def Elsewhere (ms : List Member) (m : Member) (o : Object) (x : Fact) : Prop := ∃ q ∈ ms, q ≠ m ∧ Belongs q.pkg o ∧ q.out.facts.Has o x

/-- `m` can refer to the object, if another package declares it. -/
def Reachable (imports : Member → Member → Prop) (visible : Member → Object → Prop) (ms : List Member) (m : Member) (o : Object) : Prop :=
  ∀ q ∈ ms, q ≠ m → Belongs q.pkg o → Passes imports visible q o m

private theorem given_iff (s : Session strict imports visible ms) (w : Packages ms) {m : Member} (hm : m ∈ ms) {o : Object}
    (hr : Reachable imports visible ms m o) (x : Fact) : m.pkg.env.facts.Has o x ↔ Elsewhere ms m o x := by
  constructor
  · intro h
    obtain ⟨r, hi, hy⟩ := s.known m hm o x h
    have hrm : r ∈ ms := by
      obtain ⟨pre, post, e⟩ := List.append_of_mem hm
      rw [e]; simp [s.order _ _ _ e _ hi]
    obtain ⟨q, hq, -, hb, hx⟩ := (facts_from_owner s w hrm).2 o x ((hy x).1 h)
    refine ⟨q, hq, ?_, hb, hx⟩
    rintro rfl
    exact (facts_from_owner s w hq).1 o x hb h
  · rintro ⟨q, hq, hne, hb, hx⟩
    exact ((facts_travel s w hm hq hb (hr q hq hne hb) x).1).2 hx

private theorem sameAt_of {a b : Facts} {o : Object} (h : ∀ x, a.Has o x ↔ b.Has o x) : SameAt a b o :=
  ⟨Option.ext fun x => h (.codes x), Option.ext fun x => h (.ctor x), Option.ext fun x => h (.errorType x), Option.ext fun x => h (.interface x)⟩

private theorem none_of {α : Type} {v : Option α} (h : ∀ x, v ≠ some x) : v = none := by
  cases v with
  | none => rfl
  | some x => exact absurd rfl (h x)

private theorem same_after {a b x y : Facts} {o : Object} (h : Recorded a b x y o) (e : SameAt a b o) : SameAt x y o := by
  obtain ⟨h1, h2, h3, h4⟩ := h
  obtain ⟨e1, e2, e3, e4⟩ := e
  refine ⟨?_, ?_, ?_, ?_⟩
  · rcases h1 with h | ⟨h, h'⟩
    · exact h.symm
    · rw [h, h', e1]
  · rcases h2 with h | ⟨h, h'⟩
    · exact h.symm
    · rw [h, h', e2]
  · rcases h3 with h | ⟨h, h'⟩
    · exact h.symm
    · rw [h, h', e3]
  · rcases h4 with h | ⟨h, h'⟩
    · exact h.symm
    · rw [h, h', e4]

/-- **C62.** Two programs contain the same package, possibly with other versions of the packages it uses.  If these have recorded the same
for each object the package comes across, the same is reported for the package, and the same facts are recorded for what it declares and for
what it comes across. -/
theorem upgraded_dependencies (s : Session strict imports visible ms) (w : Packages ms) (s' : Session strict imports' visible' ms') (w' : Packages ms')
    {m m' : Member} (hm : m ∈ ms) (hm' : m' ∈ ms') (he : SamePackage m m') (hs : m'.schedule = m.schedule)
    (hr : ∀ o, Meets m.pkg o → Reachable imports visible ms m o) (hr' : ∀ o, Meets m.pkg o → Reachable imports' visible' ms' m' o)
    (hx : ∀ o, Meets m.pkg o → ∀ x, Elsewhere ms m o x ↔ Elsewhere ms' m' o x) :
    (∃ facts, m'.out = { m.out with facts := facts }) ∧
      ∀ o, Meets m.pkg o ∨ Belongs m.pkg o → SameAt m.out.facts m'.out.facts o := by
  have hF : ∀ o, Meets m.pkg o → SameAt m.pkg.env.facts m'.pkg.env.facts o := fun o ho => sameAt_of fun x =>
    (given_iff s w hm (hr o ho) x).trans ((hx o ho x).trans (given_iff s' w' hm' (hr' o ho) x).symm)
  have key := unmet_imports (S := m.schedule) (strict := strict) hF
  rw [s.ran m hm] at key
  obtain ⟨facts, h, hrec⟩ := key
  have r' := s'.ran m' hm'
  rw [hs, same_given he] at r'
  have hout : m'.out = { m.out with facts := facts } := by
    have : runVerify (m.pkg.withImports m'.pkg.env.facts) m.schedule strict = .ok m'.out := r'
    rw [this] at h
    exact Except.ok.inj h
  refine ⟨⟨facts, hout⟩, fun o ho => ?_⟩
  have hf : m'.out.facts = facts := by rw [hout]
  rw [hf]
  refine same_after (hrec o) ?_
  rcases ho with ho | hb
  · exact hF o ho
  · have hb' : Belongs m'.pkg o := by
      rw [same_given he]
      cases hb with
      | func h1 h2 => exact .func h1 h2
      | method h1 h2 h3 => exact .method h1 h2 h3
      | interface h1 h2 => exact .interface h1 h2
      | type h1 h2 => exact .type h1 h2
    have n1 := (facts_from_owner s w hm).1 o
    have n2 := (facts_from_owner s' w' hm').1 o
    exact sameAt_of fun x => ⟨fun h => absurd h (n1 x hb), fun h => absurd h (n2 x hb')⟩

end

/-! ## Example

In the program of `Props/LinkedExample.lean`, `a` is replaced by a version with one more function:

```go
// Errors:
//   - other-error -- always
func Other() *Err { return &Err{"other-error"} }
```
-/

namespace Upgrade
open Linked.Example

def otherDoc : GoString := b!"Errors:\n\n  - other-error -- always\n"
def bodyOther : List Node := [.ret 50 [.unary 51 true (.compositeLit 52 [.basicLit 53])]]

def aPkg₂ : Package :=
  { aPkg with
    env :=
      { aEnv with
        funcs := aEnv.funcs ++ [⟨115, some ⟨116, b!"Other", none⟩, ⟨[], some [⟨[], 114⟩], 310⟩, some bodyOther, 320, 400⟩]
        value := fun n => if n = 53 then some (.str b!"other-error") else aEnv.value n
        typeOf := fun n => if n = 52 then .named 7 else if n = 51 ∨ n = 114 then .pointer (.named 7) else aEnv.typeOf n }
    decls :=
      { aPkg.decls with
        name := fun f => if f = 3 then b!"Other" else aPkg.decls.name f
        doc := fun f => if f = 3 then some otherDoc else aPkg.decls.doc f }
    funcs := [0, 1, 2, 3]
    top := [.func 0, .func 1, .func 2, .func 3] }

def aOut₂ : Outcome :=
  match runVerify aPkg₂ schedule false with
  | .ok out => out
  | .error _ => ⟨aPkg₂.env.facts, [], [], [], [], [], [], []⟩

theorem a_ran₂ : runVerify aPkg₂ schedule false = .ok aOut₂ := rfl

def a₂ : Member := ⟨aPkg₂, schedule, aOut₂⟩

def aFacts₂ : Facts := { aFacts with codes := fun o => if o = 73 then some [b!"other-error"] else aFacts.codes o }

def bPkg₂ : Package := bPkg.withImports aFacts₂

def bOut₂ : Outcome :=
  match runVerify bPkg₂ schedule false with
  | .ok out => out
  | .error _ => ⟨bPkg₂.env.facts, [], [], [], [], [], [], []⟩

theorem b_ran₂ : runVerify bPkg₂ schedule false = .ok bOut₂ := rfl

def b₂ : Member := ⟨bPkg₂, schedule, bOut₂⟩

/-- Something new is known about `a`, in `a` and in `b`. -/
theorem changed : aOut₂.facts.codes 73 = some [b!"other-error"] ∧ bOut₂.facts.codes 73 = some [b!"other-error"] ∧ bOut.facts.codes 73 = none := by
  decide

theorem a_objects₂ : Objects aPkg₂ where
  funcs := by decide
  distinct := fun f _ g _ h => Nat.add_left_cancel (n := 70) h
  methods := a_objects.methods
  apart := by
    intro f hf d hd m hm
    have hd : d = Linked.Example.getter := List.mem_singleton.1 hd
    subst hd
    simp only [Linked.Example.getter, List.mem_singleton, IfaceElement.method.injEq] at hm
    subst hm
    simp only [aPkg₂, List.mem_cons, List.not_mem_nil, or_false] at hf
    rcases hf with rfl | rfl | rfl | rfl <;> decide
  imported := fun _ _ => ⟨rfl, rfl⟩
  importedMethods := fun _ _ _ _ => rfl
  interfaces := a_objects.interfaces
  importedInterfaces := fun _ _ => rfl
  importedTables := fun o ms h => by cases h

theorem a_types₂ : Types aPkg₂ := ⟨a_types.named, a_types.distinct, fun _ _ _ _ => rfl⟩

theorem a_belongs₂ {o : Object} (h : Belongs aPkg₂ o) : o ∈ [70, 71, 72, 73, 90, 20, 7] := by
  cases h with
  | func hf he =>
    simp only [aPkg₂, List.mem_cons, List.not_mem_nil, or_false] at hf
    rcases hf with rfl | rfl | rfl | rfl <;> subst he <;> decide
  | method hd hm he => have := a_belongs (.method hd hm he); simp at this ⊢; grind
  | interface hd he => have := a_belongs (.interface hd he); simp at this ⊢; grind
  | type hs he => have := a_belongs (.type hs he); simp at this ⊢; grind

theorem belongs_a₂ {o : Object} (h : Belongs aPkg o) : Belongs aPkg₂ o := by
  cases h with
  | func hf he =>
    refine .func (show _ ∈ [0, 1, 2, 3] from ?_) he
    simp only [aPkg, List.mem_cons, List.not_mem_nil, or_false] at hf
    rcases hf with rfl | rfl | rfl <;> decide
  | method hd hm he => exact .method hd hm he
  | interface hd he => exact .interface hd he
  | type hs he => exact .type hs he

theorem a_facts₂ (o : Object) (x : Fact) : aFacts₂.Has o x ↔ aOut₂.facts.Has o x := by
  by_cases h : o ∈ [70, 71, 72, 73, 90, 20, 7]
  · have : aFacts₂.codes o = aOut₂.facts.codes o ∧ aFacts₂.ctor o = aOut₂.facts.ctor o ∧ aFacts₂.errorType o = aOut₂.facts.errorType o ∧
        aFacts₂.interface o = aOut₂.facts.interface o := by
      simp only [List.mem_cons, List.not_mem_nil, or_false] at h
      rcases h with rfl | rfl | rfl | rfl | rfl | rfl | rfl <;> decide
    obtain ⟨h1, h2, h3, h4⟩ := this
    cases x <;> simp only [Facts.Has, h1, h2, h3, h4]
  · rw [Session.run_keeps a_ran₂ schedule_fair a_objects₂ a_program a_types₂ (fun hb => h (a_belongs₂ hb)) x]
    simp only [List.mem_cons, List.not_mem_nil, or_false, not_or] at h
    obtain ⟨h1, h2, h3, h4, h5, h6, h7⟩ := h
    cases x <;> simp [Facts.Has, aFacts₂, aFacts, h1, h2, h4, h5, h6, h7, aPkg₂, aEnv, Tracking.plainEnv]

def ms₂ : List Member := [a₂, b₂]
def imports₂ (m q : Member) : Prop := m = b₂ ∧ q = a₂

theorem a_ne_b₂ : a₂ ≠ b₂ := fun h => by
  have : a₂.pkg.ifaces = b₂.pkg.ifaces := by rw [h]
  cases this

theorem session₂ : Session false imports₂ visible ms₂ where
  fair := by
    intro m hm
    simp only [ms₂, List.mem_cons, List.not_mem_nil, or_false] at hm
    rcases hm with rfl | rfl <;> exact schedule_fair
  ran := by
    intro m hm
    simp only [ms₂, List.mem_cons, List.not_mem_nil, or_false] at hm
    rcases hm with rfl | rfl
    · exact a_ran₂
    · exact b_ran₂
  order := by
    rintro pre m post e q ⟨rfl, rfl⟩
    match pre, e with
    | [], e => simp only [ms₂, List.nil_append, List.cons.injEq] at e; exact absurd e.1 a_ne_b₂
    | p :: pre, e => simp only [ms₂, List.cons_append, List.cons.injEq] at e; simp [e.1]
  known := by
    intro m hm o x hx
    simp only [ms₂, List.mem_cons, List.not_mem_nil, or_false] at hm
    rcases hm with rfl | rfl
    · cases x <;> cases hx
    · exact ⟨a₂, ⟨rfl, rfl⟩, fun y => a_facts₂ o y⟩
  passed := by
    rintro m hm q ⟨rfl, rfl⟩ o x _ hx
    exact (a_facts₂ o x).2 hx

theorem packages₂ : Packages ms₂ where
  objects := by
    intro m hm
    simp only [ms₂, List.mem_cons, List.not_mem_nil, or_false] at hm
    rcases hm with rfl | rfl
    · exact ⟨a_objects₂.funcs, a_objects₂.distinct, a_objects₂.methods, a_objects₂.apart, fun _ _ => ⟨rfl, rfl⟩, fun _ _ _ _ => rfl,
        a_objects₂.interfaces, fun _ _ => rfl, fun o ms h => by cases h⟩
    · exact packages.objects b (by simp [ms])
  types := by
    intro m hm
    simp only [ms₂, List.mem_cons, List.not_mem_nil, or_false] at hm
    rcases hm with rfl | rfl
    · exact ⟨a_types₂.named, a_types₂.distinct, fun _ _ _ _ => rfl⟩
    · exact packages.types b (by simp [ms])
  interfaces := by
    intro m hm
    simp only [ms₂, List.mem_cons, List.not_mem_nil, or_false] at hm
    rcases hm with rfl | rfl
    · exact a_program
    · exact b_program
  apart := by
    simp only [ms₂, List.pairwise_cons, List.mem_singleton, List.not_mem_nil, false_implies, implies_true, List.Pairwise.nil, and_true,
      forall_eq]
    intro o h1 h2
    have h1 := a_belongs₂ h1
    have h2 : o ∈ [80, 81, 8] := b_belongs (by
      cases h2 with
      | func h1 h2 => exact .func h1 h2
      | method h1 h2 h3 => exact .method h1 h2 h3
      | interface h1 h2 => exact .interface h1 h2
      | type h1 h2 => exact .type h1 h2)
    simp only [List.mem_cons, List.not_mem_nil, or_false] at h1 h2
    rcases h2 with rfl | rfl | rfl <;> simp at h1

/-- The types that `b` comes across. -/
theorem types_b {T : GoType} (h : TypeIn bPkg T) : T ∈ [.signature 1, .signature 3, .named 9, .pointer (.named 7), .named 8, .string, .named 7,
    .named 20, .struct 7, .struct 8, .interface 1, .interface 2] := by
  induction h with
  | expr n =>
    show (if n = 82 then .signature 1 else if n = 92 then .signature 3 else if n = 91 ∨ n = 402 ∨ n = 407 then .named 9
      else if n = 81 then .pointer (.named 7) else if n = 95 ∨ n = 408 then .named 8 else GoType.string) ∈ _
    split
    · decide
    · split
      · decide
      · split
        · decide
        · split
          · decide
          · split <;> decide
  | underlying _ hn ih =>
    simp only [List.mem_cons, List.not_mem_nil, or_false] at ih
    rcases ih with rfl | rfl | rfl | rfl | rfl | rfl | rfl | rfl | rfl | rfl | rfl | rfl <;> cases hn <;> decide
  | pointer _ ih => simp at ih; subst ih; decide
  | slice _ ih => simp at ih
  | array _ ih => simp at ih
  | key _ ih => simp at ih
  | value _ ih => simp at ih
  | chan _ ih => simp at ih
  | field _ hf ih =>
    simp at ih
    rcases ih with rfl | rfl
    · have := List.mem_singleton.1 (show _ ∈ [(b!"TheCode", GoType.string)] from hf)
      subst this; decide
    · exact absurd hf (by simp [bPkg, info])
  | param _ hp ih =>
    simp at ih
    rcases ih with rfl | rfl
    · have := List.mem_singleton.1 (show _ ∈ [GoType.string] from hp)
      subst this; decide
    · have := List.mem_singleton.1 (show _ ∈ [GoType.named 20] from hp)
      subst this; decide
  | component _ hc ih => simp at ih

/-- The objects that `b` comes across. -/
theorem meets_b {o : Object} (h : Meets bPkg o) : o ∈ [71, 70, 80, 81, 9, 7, 8, 20, 90, 72] := by
  cases h with
  | callee h =>
    rename_i n
    have h : (if n = 81 then some 71 else if n = 91 then some 70 else none) = some o := h
    split at h
    · cases h; decide
    · split at h <;> cases h; decide
  | uses h => cases h
  | selection h => cases h
  | own h =>
    rename_i f
    match f with
    | 0 => decide
    | 1 => decide
    | f + 2 => simp [bPkg, bEnv, Env.func] at h
  | type hT hn =>
    have := types_b hT
    simp only [List.mem_cons, List.not_mem_nil, or_false] at this
    rcases this with rfl | rfl | rfl | rfl | rfl | rfl | rfl | rfl | rfl | rfl | rfl | rfl <;> cases hn <;> decide
  | method _ hq =>
    have all : ∀ {t m}, U.methods t m = some o → o ∈ [71, 70, 80, 81, 9, 7, 8, 20, 90, 72] := by
      intro t m h
      unfold U at h
      simp only at h
      split at h
      · cases h; decide
      · split at h
        · cases h; decide
        · split at h <;> cases h; decide
    rcases hq with hq | hq <;> exact all hq

theorem reachable (o : Object) : Reachable imports visible ms b o := by
  intro q hq hne _
  simp only [ms, List.mem_cons, List.not_mem_nil, or_false] at hq
  rcases hq with rfl | rfl
  · exact .direct ⟨rfl, rfl⟩ trivial
  · exact absurd rfl hne

theorem reachable₂ (o : Object) : Reachable imports₂ visible ms₂ b₂ o := by
  intro q hq hne _
  simp only [ms₂, List.mem_cons, List.not_mem_nil, or_false] at hq
  rcases hq with rfl | rfl
  · exact .direct ⟨rfl, rfl⟩ trivial
  · exact absurd rfl hne

theorem elsewhere {o : Object} (ho : Meets bPkg o) (x : Fact) : Elsewhere ms b o x ↔ Elsewhere ms₂ b₂ o x := by
  have h73 : o ≠ 73 := fun h => by have := meets_b ho; rw [h] at this; revert this; decide
  have hf : aFacts₂.Has o x ↔ aFacts.Has o x := by cases x <;> simp [Facts.Has, aFacts₂, h73]
  constructor
  · rintro ⟨q, hq, hne, hb, hx⟩
    simp only [ms, List.mem_cons, List.not_mem_nil, or_false] at hq
    rcases hq with rfl | rfl
    · exact ⟨a₂, by simp [ms₂], a_ne_b₂, belongs_a₂ hb, (a_facts₂ o x).1 (hf.2 ((a_facts o x).2 hx))⟩
    · exact absurd rfl hne
  · rintro ⟨q, hq, hne, hb, hx⟩
    simp only [ms₂, List.mem_cons, List.not_mem_nil, or_false] at hq
    rcases hq with rfl | rfl
    · refine ⟨a, by simp [ms], a_ne_b, belongs_a ?_, (a_facts o x).1 (hf.1 ((a_facts₂ o x).2 hx))⟩
      have := a_belongs₂ hb
      simp at this ⊢
      grind
    · exact absurd rfl hne

/-- The hypotheses of the theorem hold: nothing else is reported for `b`. -/
theorem upgraded : (∃ facts, bOut₂ = { bOut with facts := facts }) ∧
    ∀ o, Meets bPkg o ∨ Belongs bPkg o → SameAt bOut.facts bOut₂.facts o :=
  upgraded_dependencies session packages session₂ packages₂ (m := b) (m' := b₂) (by simp [ms]) (by simp [ms₂]) rfl rfl
    (fun o _ => reachable o) (fun o _ => reachable₂ o) (fun _ ho x => elsewhere ho x)

/-- Without its declaration, `Use` is reported where it is called: what the source does come across matters. -/
theorem met_matters : ∃ F, Meets bPkg 70 ∧ (∀ o, o ≠ 70 → SameAt bPkg.env.facts F o) ∧
    ∃ out, runVerify (bPkg.withImports F) schedule false = .ok out ∧ out.bodies ≠ bOut.bodies := by
  refine ⟨{ aFacts with codes := fun o => if o = 70 then none else aFacts.codes o }, .callee (n := 91) rfl, fun o ho => ?_, _, rfl, by decide⟩
  exact ⟨by simp [bPkg, bEnv, ho], rfl, rfl, rfl⟩

end Upgrade
end Serum.Props.Imports
