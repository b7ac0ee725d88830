import Verif.Spec.Linked
import Verif.SimpleScope
import Verif.Props.RunExample

/-! # A computable condition under which a package is in the scope of C42 (for examples) -/

namespace Serum.Linked
open SessionSpec RunSpec ConvSpec Serum.Runtime Serum.Analyse Flow

/-! ### Conversions -/

/-- No `key: value` pairs. -/
def unkeyed (elts : List Node) : Bool := elts.all fun e => match e with | .keyValue .. => false | _ => true

def noTuple (env : Env) (a : Node) : Bool := match env.typeOf a.id with | .tuple _ => false | _ => true

/-- Nodes for which `WellTyped` and `Supported` hold. -/
def plainNode (env : Env) (info : Conv.Info) (w : Option FuncType) : Node → Bool
  | .assign _ lhs rhs => lhs.length == rhs.length
  | .valueSpec _ names _ values => values.isEmpty || names.length == values.length
  | .call _ fn args => match env.typeOf fn.id with
    | .signature s => !info.variadic s && args.length == (info.params s).length && args.all (noTuple env)
    | _ => false
  | .compositeLit id elts => match env.typeOf id with
    | .named o => match info.underlying o with
      | .struct n => elts.isEmpty || (elts.length == (info.fields n).length && unkeyed elts)
      | _ => false
    | _ => false
  | .ret _ results => match w with
    | some ft => results.isEmpty || match ft.results with
      | some fields => results.length == (resultTypes fields).length
      | none => false
    | none => false
  | .typeAssert _ _ (some t) => match env.typeOf t with
    | .named o => match info.underlying o with
      | .interface _ => true
      | _ => false
    | _ => false
  | .typeAssert .. | .typeSwitch .. | .index .. | .range .. | .send .. | .funcLit .. => false
  | _ => true

/-- Calls only, no conversions. -/
def onlyCalls : CallKind := ⟨fun _ => false, fun _ => false⟩

theorem plainNode_fine {env : Env} {info : Conv.Info} {w : Option FuncType} {n : Node} (h : plainNode env info w n = true) :
    WellTyped env info onlyCalls w n ∧ ConvSpec.Supported env info onlyCalls w n := by
  cases n with
  | assign id lhs rhs => exact ⟨.inl (by simpa [plainNode] using h), trivial⟩
  | valueSpec id names type values =>
    refine ⟨?_, trivial⟩
    simp only [plainNode, Bool.or_eq_true, List.isEmpty_iff, beq_iff_eq] at h
    rcases h with h | h
    · exact .inl h
    · exact .inr (.inl h)
  | call id fn args =>
    simp only [plainNode] at h
    split at h
    · rename_i s hs
      simp only [Bool.and_eq_true, List.all_eq_true, beq_iff_eq, Bool.not_eq_true'] at h
      obtain ⟨⟨h1, h2⟩, h3⟩ := h
      have nt : ∀ a ∈ args, ¬ IsTuple (env.typeOf a.id) := by
        rintro a ha ⟨t, ht⟩
        have := h3 a ha
        simp [noTuple, ht] at this
      refine ⟨.inr (.inr ⟨rfl, s, by simp [under, hs], (fun hv => by rw [h1] at hv; cases hv), ?_⟩), fun h => (nomatch h), fun _ s' hs' => ?_⟩
      · cases args with
        | nil => exact .inr (.inl rfl)
        | cons a as => exact .inl ⟨nofun, nt, fun _ => h2, fun hv => by rw [h1] at hv; cases hv⟩
      · rw [hs] at hs'
        cases hs'
        exact ⟨hs, .inr ⟨rfl, fun a ha => nt a (by simp [ha])⟩⟩
    · cases h
  | compositeLit id elts =>
    simp only [plainNode] at h
    split at h
    · rename_i o ho
      split at h
      · rename_i n hn
        simp only [Bool.or_eq_true, Bool.and_eq_true, beq_iff_eq, List.isEmpty_iff] at h
        refine ⟨⟨fun n' hn' => ?_, fun k e hk => ?_⟩, fun t ht => ?_⟩
        · rw [ho] at hn'
          simp only [literalType, under, hn] at hn'
          cases hn'
          rcases h with h | ⟨h1, h2⟩
          · exact .inl ⟨[], h, .nil⟩
          · refine .inr ⟨h1, fun e he kid k v hk => ?_⟩
            have := List.all_eq_true.1 h2 e he
            simp [hk] at this
        · rw [ho] at hk
          simp only [literalType, under, hn] at hk
          cases hk
        · rw [ho] at ht; cases ht
      · cases h
    · cases h
  | ret id results =>
    simp only [plainNode] at h
    split at h
    · rename_i ft
      simp only [Bool.or_eq_true, List.isEmpty_iff] at h
      rcases h with rfl | h
      · exact ⟨⟨_, rfl, fun h => absurd rfl h⟩, fun ft fields _ _ h => absurd rfl h⟩
      · split at h
        · rename_i fields hf
          have h : results.length = (resultTypes fields).length := by simpa using h
          refine ⟨⟨_, rfl, fun _ => ⟨fields, hf, .inl h⟩⟩, fun ft' fields' h1 h2 _ => ?_⟩
          cases h1
          rw [hf] at h2; cases h2
          exact .inr h
        · cases h
    · cases h
  | typeAssert id x t =>
    cases t with
    | none => cases h
    | some t =>
      simp only [plainNode] at h
      split at h
      · rename_i o ho
        split at h
        · rename_i n hn
          refine ⟨fun o' ho' _ _ => ?_, fun t ht => ?_⟩
          · rw [ho] at ho'; cases ho'; exact ⟨n, hn⟩
          · rw [ho] at ht; cases ht
        · cases h
      · cases h
  | typeSwitch | index | range | send | funcLit => cases h
  | _ => exact ⟨trivial, trivial⟩

/-- All nodes of a list satisfy the condition. -/
def plainNodes (env : Env) (info : Conv.Info) (w : Option FuncType) (l : List Node) : Bool :=
  (Node.inspectList (fun _ => true) l).all (plainNode env info w)

def plainTop (env : Env) (info : Conv.Info) (decls : List Conv.TopDecl) : Bool :=
  decls.all fun
    | .func f => plainNodes env info (some (env.func f).type) ((env.func f).body.getD [])
    | .node n => plainNodes env info none [n]

theorem plainTop_fine {env : Env} {info : Conv.Info} {decls : List Conv.TopDecl} (h : plainTop env info decls = true) :
    Props.Conversions.Fine env info onlyCalls decls := by
  have lits : ∀ {w l}, plainNodes env info w l = true →
      (Node.inspectList (fun _ => true) l).all (fun n => match n with | .funcLit .. => false | _ => true) = true := by
    intro w l hl
    unfold plainNodes at hl
    rw [List.all_eq_true] at hl ⊢
    intro x hx
    have := hl x hx
    cases x with
    | funcLit => cases this
    | _ => rfl
  unfold plainTop at h
  rw [List.all_eq_true] at h
  rintro n w (⟨f, body, n0, hf, hb, hn0, ha⟩ | ⟨n0, hn0, ha⟩)
  · have hp := h _ hf
    simp only [hb, Option.getD_some] at hp
    obtain ⟨rfl, hm⟩ := Props.Run.around_list ha hn0 (lits hp)
    exact plainNode_fine (List.all_eq_true.1 hp _ hm)
  · have hp := h _ hn0
    simp only at hp
    obtain ⟨rfl, hm⟩ := Props.Run.around_list ha (List.mem_singleton.2 rfl) (lits hp)
    exact plainNode_fine (List.all_eq_true.1 hp _ hm)

/-! ### Functions -/

/-- No assignment to something like `x.f`. -/
def noStore : Node → Bool
  | .assign _ lhs _ => lhs.all fun l => match l.unparen with | .selector .. => false | _ => true
  | _ => true

/-- A function in the scope of C24. -/
def okFunction (env : Env) (X : Extra) (f : FnId) : Bool :=
  match (env.func f).body with
  | none => false
  | some body => simpleScope env X f body && (Node.inspectList (fun _ => true) body).all noStore &&
    match importErrorConstructorFact env f with
    | none => true
    | some position => (getParamIdent (env.func f).type position).isSome

theorem okFunction_scope {env : Env} {X : Extra} {f : FnId} (h : okFunction env X f = true) (hc : ∀ id, env.comments id = []) :
    Props.Soundness.InScope env X f := by
  unfold okFunction at h
  split at h
  · cases h
  rename_i body hb
  simp only [Bool.and_eq_true] at h
  obtain ⟨⟨h1, h2⟩, h3⟩ := h
  have hs := (simpleScope_parts h1).1
  refine ⟨body, ⟨hb, ⟨(Props.Tracking.scope_of_noLits _ _ (simple_noLit hs)).1,
    fun _ i _ _ => (Props.Tracking.scope_of_noLits _ _ (simple_noLit hs)).2 i⟩,
    ⟨fun id fn type b ho => by have := simple_node hs ho; simp [simpleNode] at this,
      fun id lhs rhs ho _ hn => by have := simple_node hs ho; subst hn; simp [simpleNode] at this⟩,
    ⟨fun _ => 0, fun _ => Nat.zero_le _, fun x e i o hk hs' _ _ => absurd (simple_source hs hs').2 hk⟩, ?_⟩, ?_,
    simpleScope_parsed h1, simpleScope_supported h1 ?_⟩
  · intro position hp
    rw [hp] at h3
    simp only [Option.isSome_iff_ne_none] at h3
    exact h3
  · intro _ _ _ _ _ _ _ _ _ _
    simp [Removed, hc, getReturnStmtAnnotations]
  · intro id lhs rhs k l sid y sel et ho hk hl
    have := List.all_eq_true.1 h2 _ ((mem_inspectList _ _ _).2 ho)
    simp only [noStore, List.all_eq_true] at this
    have := this l (List.mem_of_getElem? hk)
    simp [hl] at this

/-! ### Packages -/

/-- The functions `L` are in scope, and they call only each other. -/
def okFunctions (m : Member) (X : Extra) (L : List FnId) : Bool :=
  L.all (fun f => okFunction (comparing m) X f && (m.pkg.plan (during m.pkg m.out.facts) f).targets.all (· ∈ L)) &&
  m.pkg.funcs.all (fun f => decide (f ∈ L) || (m.out.facts.codes (m.pkg.env.funcObj f)).isNone)

def noVisits (m : Member) (facts : Facts) : Bool :=
  (List.range m.pkg.env.funcs.length).all fun f => (m.pkg.plan facts f).visits.isEmpty

theorem noVisits_spec {m : Member} {facts : Facts} (h : noVisits m facts = true) (f : FnId) : (m.pkg.plan facts f).visits = [] := by
  by_cases hf : f < m.pkg.env.funcs.length
  · have := List.all_eq_true.1 h f (List.mem_range.2 hf)
    simpa using this
  · have hf' : m.pkg.env.funcs.length ≤ f := Nat.le_of_not_lt hf
    simp [Package.plan, Package.at_, Package.start, Analyse.plan, Analyse.bodyPlan, Env.func, List.getElem?_eq_none hf', Plan.visits]

/-- The check. -/
def okPackage (m : Member) (X : Extra) (L : List FnId) : Bool :=
  okFunctions m X L && noVisits m (during m.pkg m.out.facts) && plainTop (converting m) m.pkg.conv m.pkg.top

theorem okPackage_scope {m : Member} {X : Extra} {L : List FnId} (h : okPackage m X L = true) {strict : Bool}
    (hr : runVerify m.pkg m.schedule strict = .ok m.out) (hS : m.schedule.Fair) (ho : Objects m.pkg) (hp : Props.Interfaces.Program m.pkg.ifaces)
    (hc : ∀ id, m.pkg.env.comments id = []) (ha : PrintsAscii m.pkg.env.isPrint) (hX : ForeignStores X) : InScope X onlyCalls m := by
  unfold okPackage okFunctions at h
  simp only [Bool.and_eq_true, List.all_eq_true, Bool.or_eq_true, decide_eq_true_eq] at h
  obtain ⟨⟨⟨h1, h2⟩, h3⟩, h4⟩ := h
  refine ⟨ha, hX, ?_, ?_, plainTop_fine h4⟩
  · intro f c _ g _ z hz; rw [noVisits_spec h3] at hz; cases hz
  · rintro g ⟨f, c, hf, hreach⟩
    have hfL : f ∈ L := by
      have hfm : f ∈ m.pkg.funcs := Prepared.kept_sub hf.1
      rcases h2 f hfm with h | h
      · exact h
      · rw [((Props.Run.exported_codes hr hS ho hp).1 f hfm c.codes).2 ⟨c, hf, rfl⟩] at h
        cases h
    clear hf
    have : g ∈ L := by
      induction hreach with
      | refl => exact hfL
      | step hcall _ ih => exact ih' hcall ih hfL h1
    exact okFunction_scope (h1 g this).1 hc
where
  ih' {m : Member} {L : List FnId} {X : Extra} {f g h : FnId} (hcall : Calls (m.pkg.plan (during m.pkg m.out.facts)) f g) (ih : g ∈ L → h ∈ L) (hf : f ∈ L)
      (h1 : ∀ f ∈ L, okFunction (comparing m) X f = true ∧ ∀ x ∈ (m.pkg.plan (during m.pkg m.out.facts) f).targets, x ∈ L) : h ∈ L :=
    ih ((h1 f hf).2 g hcall)

/-! ### All conversions of such a package -/

/-- The conversions (target, source) at a node which satisfies `plainNode`. -/
def convs (env : Env) (info : Conv.Info) (w : Option FuncType) : Node → List (GoType × GoType)
  | .assign _ lhs rhs => (lhs.map fun l => env.typeOf l.id).zip (rhs.map fun r => env.typeOf r.id)
  | .valueSpec _ _ (some type) values => values.map fun v => (env.typeOf type, env.typeOf v.id)
  | .call _ fn args => match env.typeOf fn.id with
    | .signature s => (info.params s).zip (args.map fun a => env.typeOf a.id)
    | _ => []
  | .compositeLit id elts => match env.typeOf id with
    | .named o => match info.underlying o with
      | .struct n => ((info.fields n).map Prod.snd).zip (elts.map fun e => env.typeOf e.id)
      | _ => []
    | _ => []
  | .ret _ results => match w with
    | some ft => match ft.results with
      | some fields => ((resultTypes fields).map env.typeOf).zip (results.map fun e => env.typeOf e.id)
      | none => []
    | none => []
  | .typeAssert _ x (some t) => match env.typeOf t with
    | .named o => match info.underlying o with
      | .interface n => if info.implements (env.typeOf x.id) n then [(env.typeOf t, env.typeOf x.id)] else []
      | _ => []
    | _ => []
  | _ => []

theorem mem_zip_of_getElem? {α β : Type} {l : List α} {r : List β} {i : Nat} {a : α} {b : β} (h1 : l[i]? = some a) (h2 : r[i]? = some b) :
    (a, b) ∈ l.zip r := by
  refine List.mem_of_getElem? (i := i) ?_
  rw [List.getElem?_zip_eq_some]
  exact ⟨h1, h2⟩

theorem mem_convs {env : Env} {info : Conv.Info} {w : Option FuncType} {n : Node} (h : plainNode env info w n = true) {T S : GoType} {e : NodeId}
    (hc : Converts env info onlyCalls w n T S e) : (T, S) ∈ convs env info w n := by
  cases hc with
  | @assign _ _ _ i _ _ hl h1 h2 => exact mem_zip_of_getElem? (i := i) (by simp [h1]) (by simp [h2])
  | assignMany hl _ _ _ => simp [plainNode] at h; exact absurd h hl
  | var hl hv => exact List.mem_map.2 ⟨_, hv, rfl⟩
  | varMany hl _ _ _ => simp [plainNode] at h; exact absurd h hl
  | argument _ hs hp _ ha _ =>
    simp only [plainNode] at h
    split at h
    · rename_i s hs'
      simp only [under, hs', GoType.signature.injEq] at hs
      subst hs
      simp only [convs, hs']
      exact mem_zip_of_getElem? hp (by simp [ha])
    · cases h
  | variadicArgument _ _ hs hv | spreadArgument _ _ hs hv =>
    simp only [plainNode] at h
    split at h
    · rename_i s hs'
      simp only [under, hs', GoType.signature.injEq] at hs
      subst hs
      simp [hv] at h
    · cases h
  | forwardedArgument _ hs _ _ ht =>
    simp only [plainNode] at h
    split at h
    · simp [noTuple, ht] at h
    · cases h
  | forwardedVariadic _ _ hs hv =>
    simp only [plainNode] at h
    split at h
    · rename_i s hs'
      simp only [under, hs', GoType.signature.injEq] at hs
      subst hs
      simp [hv] at h
    · cases h
  | conversion hk => cases hk
  | assertion hu hi =>
    simp only [plainNode] at h
    split at h
    · rename_i o ho
      split at h
      · rename_i n hn
        simp only [under, ho, hn, GoType.interface.injEq] at hu
        subst hu
        simp [convs, ho, hn, hi]
      · cases h
    · cases h
  | typeCase | mapIndex | rangeKey | rangeValue | send => cases h
  | keyedField hl hf hm _ =>
    simp only [plainNode] at h
    split at h
    · rename_i o ho
      split at h
      · simp only [Bool.or_eq_true, Bool.and_eq_true, List.isEmpty_iff] at h
        rcases h with rfl | ⟨-, h⟩
        · cases hm
        · have := List.all_eq_true.1 h _ hm
          simp at this
      · cases h
    · cases h
  | field hl hf he _ =>
    simp only [plainNode] at h
    split at h
    · rename_i o ho
      split at h
      · rename_i n hn
        simp only [literalType, under, ho, hn, GoType.struct.injEq] at hl
        subst hl
        simp only [convs, ho, hn]
        exact mem_zip_of_getElem? (by rw [List.getElem?_map, hf]; rfl) (by simp [he])
      · cases h
    · cases h
  | element hl =>
    simp only [plainNode] at h
    split at h
    · rename_i o ho
      split at h
      · rename_i n hn
        simp [literalType, under, ho, hn] at hl
      · cases h
    · cases h
  | mapKey hl =>
    simp only [plainNode] at h
    split at h
    · rename_i o ho
      split at h
      · rename_i n hn
        simp [literalType, under, ho, hn] at hl
      · cases h
    · cases h
  | @result _ _ _ _ i _ _ hw hr hlen ht he =>
    subst hw
    simp only [convs, hr]
    exact mem_zip_of_getElem? (i := i) (by simp [ht]) (by simp [he])
  | resultMany hw hr hne =>
    subst hw
    simp only [plainNode, hr] at h
    simp at h
    exact absurd h.symm hne

/-- All conversions of a package. -/
def allConvs (env : Env) (info : Conv.Info) (decls : List Conv.TopDecl) : List (GoType × GoType) :=
  decls.flatMap fun
    | .func f => (Node.inspectList (fun _ => true) ((env.func f).body.getD [])).flatMap (convs env info (some (env.func f).type))
    | .node n => (Node.inspectList (fun _ => true) [n]).flatMap (convs env info none)

/-- Everything found in a package that satisfies `plainTop`. -/
theorem plainTop_nodes {env : Env} {info : Conv.Info} {decls : List Conv.TopDecl} (h : plainTop env info decls = true) {n : Node}
    {w : Option FuncType} (hn : InPackage env decls n w) : plainNode env info w n = true ∧ ∀ x ∈ convs env info w n, x ∈ allConvs env info decls := by
  have lits : ∀ {w l}, plainNodes env info w l = true →
      (Node.inspectList (fun _ => true) l).all (fun n => match n with | .funcLit .. => false | _ => true) = true := by
    intro w l hl
    unfold plainNodes at hl
    rw [List.all_eq_true] at hl ⊢
    intro x hx
    have := hl x hx
    cases x with
    | funcLit => cases this
    | _ => rfl
  unfold plainTop at h
  rw [List.all_eq_true] at h
  rcases hn with ⟨f, body, n0, hf, hb, hn0, ha⟩ | ⟨n0, hn0, ha⟩
  · have hp := h _ hf
    simp only [hb, Option.getD_some] at hp
    obtain ⟨rfl, hm⟩ := Props.Run.around_list ha hn0 (lits hp)
    refine ⟨List.all_eq_true.1 hp _ hm, fun x hx => List.mem_flatMap.2 ⟨_, hf, ?_⟩⟩
    simp only [hb, Option.getD_some]
    exact List.mem_flatMap.2 ⟨_, hm, hx⟩
  · have hp := h _ hn0
    simp only at hp
    obtain ⟨rfl, hm⟩ := Props.Run.around_list ha (List.mem_singleton.2 rfl) (lits hp)
    refine ⟨List.all_eq_true.1 hp _ hm, fun x hx => List.mem_flatMap.2 ⟨_, hn0, ?_⟩⟩
    exact List.mem_flatMap.2 ⟨_, hm, hx⟩

theorem converted_mem {m : Member} (h : plainTop (converting m) m.pkg.conv m.pkg.top = true) {calls : Member → CallKind}
    (hk : calls m = onlyCalls) {I J : GoType} (hc : Converted calls m I J) : (I, J) ∈ allConvs (converting m) m.pkg.conv m.pkg.top := by
  obtain ⟨e, n, w, hn, hc⟩ := hc
  rw [hk] at hc
  obtain ⟨h1, h2⟩ := plainTop_nodes h hn
  exact h2 _ (mem_convs h1 hc)

/-- No type assertions. -/
def noAssert : Node → Bool
  | .typeAssert .. => false
  | _ => true

def noAsserts (env : Env) (decls : List Conv.TopDecl) : Bool :=
  decls.all fun
    | .func f => (Node.inspectList (fun _ => true) ((env.func f).body.getD [])).all noAssert
    | .node n => (Node.inspectList (fun _ => true) [n]).all noAssert

theorem not_asserted {m : Member} (h : plainTop (converting m) m.pkg.conv m.pkg.top = true) (hn : noAsserts (converting m) m.pkg.top = true)
    {I J : GoType} : ¬ Asserted m I J := by
  rintro ⟨n, w, hw, hc⟩
  have h1 := (plainTop_nodes h hw).1
  rcases hc with ⟨id, x, t, rfl, -⟩ | ⟨_, _, _, _, _, _, _, _, _, _, _, _, rfl, -⟩
  · have h2 : ∀ {w w'} {l : List Node} {a b : Node}, Around w a b w' → a ∈ l → b ∈ Node.inspectList (fun _ => true) l := by
      intro w w' l a b ha hal
      rw [mem_inspectList]
      refine ⟨a, hal, ?_⟩
      clear hal hw h1
      induction ha with
      | self => exact .self
      | lit => exact .self
      | inside _ hc _ ih => exact .child rfl hc ih
      | body hc _ ih => exact .child rfl hc ih
    unfold noAsserts at hn
    rw [List.all_eq_true] at hn
    rcases hw with ⟨f, body, n0, hf, hb, hn0, ha⟩ | ⟨n0, hn0, ha⟩
    · have := hn _ hf
      simp only [hb, Option.getD_some, List.all_eq_true] at this
      have := this _ (h2 ha hn0)
      cases this
    · have := hn _ hn0
      simp only [List.all_eq_true] at this
      have := this _ (h2 ha (List.mem_singleton.2 rfl))
      cases this
  · cases h1

/-- `T` is an interface. -/
def Universe.isInterface (U : Universe) (T : GoType) : Bool :=
  match T with
  | .named o => match U.underlying o with | .interface _ => true | _ => false
  | .interface _ => true
  | _ => false

theorem Universe.isInterface_iff {U : Universe} {T : GoType} : U.isInterface T = true ↔ U.Interface T := by
  unfold Universe.isInterface Universe.Interface
  constructor
  · intro h
    split at h
    · rename_i o
      dsimp only
      split at h
      · rename_i n hn; exact ⟨n, hn⟩
      · cases h
    · rename_i n; exact ⟨n, rfl⟩
    · cases h
  · rintro ⟨n, h⟩
    split at h
    · dsimp only; rw [h]
    · subst h; rfl

/-- `H` contains all pairs of types and interfaces that values get into by the conversions `L`. -/
def holdsAll (U : Universe) (L : List (GoType × GoType)) (H : List (GoType × GoType)) : Bool :=
  L.all fun c => !U.isInterface c.1 || ((U.isInterface c.2 || c.2 == .untypedNil || H.contains (c.2, c.1)) &&
    H.all fun h => h.2 != c.2 || H.contains (h.1, c.1))

theorem holdsAll_spec {U : Universe} {ms : List Member} {calls : Member → CallKind} {L H : List (GoType × GoType)} (h : holdsAll U L H = true)
    (hp : ∀ m ∈ ms, plainTop (converting m) m.pkg.conv m.pkg.top = true) (hn : ∀ m ∈ ms, noAsserts (converting m) m.pkg.top = true) (hk : ∀ m ∈ ms, calls m = onlyCalls)
    (hL : ∀ m ∈ ms, ∀ x ∈ allConvs (converting m) m.pkg.conv m.pkg.top, x ∈ L) {T I : GoType} (hh : Holds U ms calls T I) : (T, I) ∈ H := by
  unfold holdsAll at h
  rw [List.all_eq_true] at h
  induction hh with
  | converted hm hT hn hc hI =>
    have := h _ (hL _ hm _ (converted_mem (hp _ hm) (hk _ hm) hc))
    have hT' : U.isInterface T = false := by
      cases hx : U.isInterface T with
      | false => rfl
      | true => exact absurd (Universe.isInterface_iff.1 hx) hT
    simp [Universe.isInterface_iff.2 hI, hT', hn] at this
    exact this.1
  | passed hm hJ hc hI ih =>
    have := h _ (hL _ hm _ (converted_mem (hp _ hm) (hk _ hm) hc))
    simp [Universe.isInterface_iff.2 hI] at this
    have := this.2 _ _ ih
    simpa using this
  | asserted hm _ ha => exact absurd ha (not_asserted (hp _ hm) (hn _ hm))

end Serum.Linked
