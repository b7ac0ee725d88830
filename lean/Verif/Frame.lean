import Verif.Removal
import Verif.Spec.ImportSpec

/-! # Which facts a run reads

Every phase of a run reads facts only about objects which the source can come across (`ImportSpec.Meets`). -/

namespace Serum
open ImportSpec

/-- The facts are the same about all objects which the source can come across. -/
def Like (P : Package) (a b : Facts) : Prop := ∀ o, Meets P o → SameAt a b o

/-- Each fact is the same in both, or as in the given facts. -/
def Over (a₀ b₀ a b : Facts) : Prop := ∀ o, Recorded a₀ b₀ a b o

variable {P : Package} {a b a₀ b₀ : Facts}

theorem Over.refl : Over a b a b := fun _ => ⟨.inr ⟨rfl, rfl⟩, .inr ⟨rfl, rfl⟩, .inr ⟨rfl, rfl⟩, .inr ⟨rfl, rfl⟩⟩

theorem Over.like (h : Over a₀ b₀ a b) (hl : Like P a₀ b₀) : Like P a b := fun o ho => by
  obtain ⟨h1, h2, h3, h4⟩ := h o
  obtain ⟨l1, l2, l3, l4⟩ := hl o ho
  refine ⟨?_, ?_, ?_, ?_⟩
  · rcases h1 with h1 | ⟨h1, h1'⟩
    · exact h1.symm
    · rw [h1, h1', l1]
  · rcases h2 with h1 | ⟨h1, h1'⟩
    · exact h1.symm
    · rw [h1, h1', l2]
  · rcases h3 with h1 | ⟨h1, h1'⟩
    · exact h1.symm
    · rw [h1, h1', l3]
  · rcases h4 with h1 | ⟨h1, h1'⟩
    · exact h1.symm
    · rw [h1, h1', l4]

theorem like_errorType (h : Like P a b) {T : GoType} (hT : TypeIn P T) :
    (P.at_ b).getErrorTypeForError T = (P.at_ a).getErrorTypeForError T := by
  unfold Env.getErrorTypeForError
  cases hn : getNamedType T with
  | none => rfl
  | some o => exact (h o (.type hT hn)).errorType.symm

theorem like_interface (h : Like P a b) {T : GoType} (hT : TypeIn P T) :
    Interfaces.importFact (P.at_ b) T = Interfaces.importFact (P.at_ a) T := by
  unfold Interfaces.importFact
  cases hn : getNamedType T with
  | none => rfl
  | some o => exact (h o (.type hT hn)).interface.symm

theorem own_like (h : Like P a b) (f : FnId) : importErrorConstructorFact (P.at_ b) f = importErrorConstructorFact (P.at_ a) f := by
  unfold importErrorConstructorFact
  show (if (P.env.func f).declName.isSome = true then b.ctor (P.env.funcObj f) else none) =
    if (P.env.func f).declName.isSome = true then a.ctor (P.env.funcObj f) else none
  split
  · rename_i hn
    exact (h _ (.own hn)).ctor.symm
  · rfl

/-! ### Bodies -/

namespace Analyse

theorem meets_of_mentioned {o : Object} (h : Mentioned P.env o) : Meets P o := by
  rcases h with ⟨n, h⟩ | ⟨n, h⟩ | ⟨n, r, h⟩
  · exact .callee h
  · exact .uses h
  · exact .selection h

theorem plan_like (h : Like P a b) : P.plan b = P.plan a := by
  funext f
  let F : Facts := { a with interface := b.interface }
  have e1 : P.plan F = P.plan a := Package.plan_eq rfl rfl rfl
  have e2 : P.at_ b = (P.at_ F).withFunctions P.start.functions b.ctor b.codes b.errorType := rfl
  have hrem : Removes (P.at_ F) P.start.functions b.ctor b.codes b.errorType (fun _ => False) f := by
    refine ⟨?_, fun n => .inl rfl, fun o ho => (h o (meets_of_mentioned ho)).ctor.symm,
      fun o ho => (h o (meets_of_mentioned ho)).codes.symm, fun n => like_errorType h (.expr n)⟩
    exact own_like h f
  rcases plan_withFunctions hrem P.depth with ⟨z, _, hz⟩ | key
  · exact hz.elim
  · rw [← e2] at key
    rw [← e1]
    exact key

end Analyse

/-! ### Error types -/

section Tag
set_option smartUnfolding false in
private theorem t_code (x y : Facts) : CodeMethod.analyse (P.at_ x) = CodeMethod.analyse (P.at_ y) := rfl

private theorem t_string (h : Like P a b) (f : FnId) :
    extractErrorCodeFromStringExpression (P.at_ b) f = extractErrorCodeFromStringExpression (P.at_ a) f := by
  funext e
  have := own_like h f
  unfold extractErrorCodeFromStringExpression checkIfExprIsErrorCodeParam
  rw [this]
  rfl

private theorem t_fa (h : Like P a b) (f : FnId) (o n rhs) : ∀ ls t i,
    Analyse.fieldAssignment (P.at_ b) f o n rhs t i ls = Analyse.fieldAssignment (P.at_ a) f o n rhs t i ls
  | [], _, _ => by unfold Analyse.fieldAssignment; rfl
  | l :: ls, t, i => by
    unfold Analyse.fieldAssignment
    have hr : Analyse.resolveType (P.at_ b) = Analyse.resolveType (P.at_ a) := by
      funext t x
      cases t with
      | some t => rfl
      | none => exact like_errorType h (.expr x.id)
    simp only [t_string h, hr, t_fa h f o n rhs ls]

private theorem t_ma (h : Like P a b) (f : FnId) (et o) : ∀ ns, methodAssignments (P.at_ b) f et o ns = methodAssignments (P.at_ a) f et o ns
  | [] => rfl
  | m :: ns => by
    cases m <;> unfold methodAssignments <;> simp only [t_ma h f et o ns, t_fa h]

private theorem t_mp (h : Like P a b) (td et) : methodPlan (P.at_ b) td et = methodPlan (P.at_ a) td et := by
  funext m
  unfold methodPlan
  simp only [t_ma h]
  rfl

theorem tagErrorType_like (h : Like P a b) (d td n spec err) : tagErrorType (P.at_ b) d td n spec err = tagErrorType (P.at_ a) d td n spec err := by
  have e1 : getCodeFuncFromError (P.at_ b) td err = getCodeFuncFromError (P.at_ a) td err := rfl
  have e2 : ∀ et, analyseMethodsOfErrorType (P.at_ b) td et err = analyseMethodsOfErrorType (P.at_ a) td et err := by
    intro et
    unfold analyseMethodsOfErrorType
    rw [t_mp h]
    rfl
  unfold tagErrorType
  rw [e1, t_code b a]
  simp only [e2]

/-- Both fail alike, or leave the same and facts that differ only as before. -/
def Alike {α : Type} (a₀ b₀ : Facts) : Except Stop (Facts × α) → Except Stop (Facts × α) → Prop
  | .ok p, .ok q => Over a₀ b₀ p.1 q.1 ∧ q.2 = p.2
  | .error e, .error e' => e' = e
  | _, _ => False

theorem tag_like (h : Like P a b) (d td n) : ∀ (specs : List TypeSpec) (x y : Facts), Over a₀ b₀ x y →
    Alike a₀ b₀ (findAndTagErrorTypes (P.at_ a) d td n specs x) (findAndTagErrorTypes (P.at_ b) d td n specs y)
  | [], x, y, ho => ⟨ho, rfl⟩
  | spec :: specs, x, y, ho => by
    unfold findAndTagErrorTypes
    have e : typeToTag (P.at_ b) = typeToTag (P.at_ a) := rfl
    rw [e]
    cases typeToTag (P.at_ a) spec.typ with
    | none => exact tag_like h d td n specs x y ho
    | some err =>
      dsimp only
      rw [tagErrorType_like h]
      cases tagErrorType (P.at_ a) d td n spec err with
      | error e => exact rfl
      | ok r =>
        obtain ⟨fact, ds⟩ := r
        have ho' : Over a₀ b₀
            (match fact with | none => x | some (o, et) => { x with errorType := fun p => if p = o then some et else x.errorType p })
            (match fact with | none => y | some (o, et) => { y with errorType := fun p => if p = o then some et else y.errorType p }) := by
          cases fact with
          | none => exact ho
          | some r =>
            obtain ⟨o, et⟩ := r
            intro q
            refine ⟨(ho q).codes, (ho q).ctor, ?_, (ho q).interface⟩
            dsimp only
            split
            · exact .inl rfl
            · exact (ho q).errorType
        have ih := tag_like h d td n specs _ _ ho'
        dsimp only [bind, Except.bind]
        revert ih
        cases findAndTagErrorTypes (P.at_ a) d td n specs _ with
        | error e =>
          cases findAndTagErrorTypes (P.at_ b) d td n specs _ with
          | error e' => exact id
          | ok r' => exact id
        | ok r =>
          cases findAndTagErrorTypes (P.at_ b) d td n specs _ with
          | error e' => exact id
          | ok r' => intro ih; exact ⟨ih.1, by show ds ++ _ = ds ++ _; rw [ih.2]⟩
end Tag

/-! ### Interfaces -/

namespace Interfaces

set_option smartUnfolding false in
private theorem i_collect (x y : Facts) : collect (P.at_ x) = collect (P.at_ y) := rfl

private theorem i_embed (h : Like P a b) (info visit) : ∀ es ms st, embed (P.at_ b) info visit es ms st = embed (P.at_ a) info visit es ms st
  | [], _, _ => by unfold embed; rfl
  | .qualified id :: es, ms, st => by
    unfold embed
    have e : importFact (P.at_ b) ((P.at_ b).typeOf id) = importFact (P.at_ a) ((P.at_ a).typeOf id) := like_interface h (.expr id)
    rw [e]
    simp only [i_embed h info visit es]
  | .name id n :: es, ms, st => by
    unfold embed
    simp only [i_embed h info visit es]

private theorem i_dfs (h : Like P a b) (info) : ∀ n, dfs (P.at_ b) info n = dfs (P.at_ a) info n
  | 0 => rfl
  | n + 1 => by
    funext i st
    unfold dfs
    rw [i_dfs h info n]
    simp only [i_embed h]

private theorem i_all (h : Like P a b) (info n) : ∀ ns st, dfsAll (P.at_ b) info n ns st = dfsAll (P.at_ a) info n ns st
  | [], _ => rfl
  | x :: ns, st => by
    unfold dfsAll
    simp only [i_dfs h, i_all h info n ns]

theorem find_like (h : Like P a b) : find (P.at_ b) = find (P.at_ a) := by
  funext info n names decls
  unfold find
  simp only [i_collect b a, i_all h]

theorem exportMethods_over (info : Info) : ∀ (ms : Table ErrorMethod) {x y : Facts}, Over a₀ b₀ x y →
    Over a₀ b₀ (exportMethods info ms x) (exportMethods info ms y)
  | [], _, _, h => h
  | m :: ms, x, y, h => by
    have ih := fun x y h => exportMethods_over info ms (x := x) (y := y) h
    unfold exportMethods at ih ⊢
    rw [List.foldl_cons, List.foldl_cons]
    refine ih _ _ ?_
    cases m.2.ident with
    | none => exact h
    | some i =>
      intro o
      refine ⟨?_, (h o).ctor, (h o).errorType, (h o).interface⟩
      dsimp only
      split
      · exact .inl rfl
      · exact (h o).codes

theorem exportFacts_over (info : Info) : ∀ (is : Table ErrorIface) {x y : Facts}, Over a₀ b₀ x y →
    Over a₀ b₀ (exportFacts info is x) (exportFacts info is y)
  | [], _, _, h => h
  | i :: is, x, y, h => by
    have ih := fun x y h => exportFacts_over info is (x := x) (y := y) h
    unfold exportFacts at ih ⊢
    rw [List.foldl_cons, List.foldl_cons]
    refine ih _ _ (exportMethods_over info _ fun o => ⟨(h o).codes, (h o).ctor, (h o).errorType, ?_⟩)
    unfold exportInterface
    dsimp only
    split
    · exact .inl rfl
    · exact (h o).interface

end Interfaces

/-! ### Exports -/

theorem exportCtors_over (env : Env) : ∀ (cs : List (FnId × FuncCodes)) {x y : Facts}, Over a₀ b₀ x y →
    Over a₀ b₀ (exportErrorConstructorFacts env cs x) (exportErrorConstructorFacts env cs y)
  | [], _, _, h => h
  | c :: cs, x, y, h => by
    have ih := fun x y h => exportCtors_over env cs (x := x) (y := y) h
    unfold exportErrorConstructorFacts at ih ⊢
    rw [List.foldl_cons, List.foldl_cons]
    refine ih _ _ ?_
    obtain ⟨f, c⟩ := c
    dsimp only
    cases c.param with
    | none => exact h
    | some p =>
      intro o
      refine ⟨(h o).codes, ?_, (h o).errorType, (h o).interface⟩
      dsimp only
      split
      · exact .inl rfl
      · exact (h o).ctor

theorem exportCodes_over (env : Env) : ∀ (cs : List (FnId × FuncCodes)) {x y : Facts}, Over a₀ b₀ x y →
    Over a₀ b₀ (exportErrorCodeFacts env cs x) (exportErrorCodeFacts env cs y)
  | [], _, _, h => h
  | c :: cs, x, y, h => by
    have ih := fun x y h => exportCodes_over env cs (x := x) (y := y) h
    unfold exportErrorCodeFacts at ih ⊢
    rw [List.foldl_cons, List.foldl_cons]
    refine ih _ _ ?_
    intro o
    refine ⟨?_, (h o).ctor, (h o).errorType, (h o).interface⟩
    dsimp only
    split
    · exact .inl rfl
    · exact (h o).codes

/-! ### Conversions -/

namespace Conv

/-- The same steps, and what is checked has types that occur. -/
def Good (P : Package) (s t : List Step) : Prop := t = s ∧ ∀ c, .check c ∈ s → TypeIn P c.source

theorem Good.nil : Good P [] [] := ⟨rfl, by simp⟩

theorem Good.panic (l : String) : Good P [.panic l] [.panic l] := ⟨rfl, by simp⟩

theorem Good.append {s s' t t' : List Step} (h : Good P s t) (h' : Good P s' t') : Good P (s ++ s') (t ++ t') := by
  refine ⟨by rw [h.1, h'.1], fun c hc => ?_⟩
  rcases List.mem_append.1 hc with hc | hc
  · exact h.2 c hc
  · exact h'.2 c hc

theorem Good.cons {x y : Step} {s t : List Step} (h : Good P [x] [y]) (h' : Good P s t) : Good P (x :: s) (y :: t) := h.append h'

theorem Good.check {ms : List (GoString × CodeSet)} {T S : GoType} {e : NodeId} (h : TypeIn P S) : Good P [.check ⟨ms, T, S, e⟩] [.check ⟨ms, T, S, e⟩] :=
  ⟨rfl, fun c hc => by cases List.mem_singleton.1 hc; exact h⟩

theorem Good.flatMap {α : Type} {k k' : α → List Step} : ∀ (l : List α), (∀ x ∈ l, Good P (k x) (k' x)) → Good P (l.flatMap k) (l.flatMap k')
  | [], _ => .nil
  | x :: l, h => by
    rw [List.flatMap_cons, List.flatMap_cons]
    exact (h x (by simp)).append (Good.flatMap l fun y hy => h y (by simp [hy]))

theorem Good.map {α : Type} {k k' : α → Step} (l : List α) (h : ∀ x ∈ l, Good P [k x] [k' x]) : Good P (l.map k) (l.map k') := by
  rw [List.map_eq_flatMap, List.map_eq_flatMap]
  exact .flatMap l h

theorem Good.eachIdx {α : Type} {k k' : Nat → α → List Step} : ∀ (l : List α) (i : Nat), (∀ i, ∀ x ∈ l, Good P (k i x) (k' i x)) →
    Good P (eachIdx k i l) (eachIdx k' i l)
  | [], _, _ => .nil
  | x :: l, i, h => by
    unfold Conv.eachIdx
    exact (h i x (by simp)).append (Good.eachIdx l _ fun i y hy => h i y (by simp [hy]))

variable (h : Like P a b)
include h

theorem Good.fact {T : GoType} (hT : TypeIn P T) {k k' : List (GoString × CodeSet) → List Step} (hk : ∀ ms, Good P (k ms) (k' ms)) :
    Good P (withFact (P.at_ a) T k) (withFact (P.at_ b) T k') := by
  unfold withFact
  rw [like_interface h hT]
  cases Interfaces.importFact (P.at_ a) T with
  | none => exact .nil
  | some ms => exact hk ms

omit h in
theorem Good.expr (ms T) (e : Node) : Good P [checkExpr (P.at_ a) ms T e] [checkExpr (P.at_ b) ms T e] := .check (.expr e.id)

omit h in
theorem Good.at_ (ms T) (es : List Node) (i : Nat) : Good P [checkAt (P.at_ a) ms T es i] [checkAt (P.at_ b) ms T es i] := by
  unfold checkAt
  cases es[i]? with
  | none => exact .panic _
  | some e => exact .expr ms T e

omit h in
theorem occurs_under {T : GoType} (hT : TypeIn P T) : TypeIn P (getUnderlyingType P.conv T) := by
  unfold getUnderlyingType
  cases hn : getNamedType T with
  | none => exact hT
  | some o => exact .underlying hT hn

private theorem s_assign (lhs rhs) : Good P (inAssign (P.at_ a) P.conv lhs rhs) (inAssign (P.at_ b) P.conv lhs rhs) := by
  unfold inAssign
  refine .eachIdx _ _ fun i l _ => .fact h (.expr l.id) fun ms => ?_
  split
  · exact .at_ ms _ rhs i
  · cases rhs with
    | nil => exact .panic _
    | cons r rs =>
      show Good P (match P.env.typeOf r.id with | .tuple t => _ | _ => _) (match P.env.typeOf r.id with | .tuple t => _ | _ => _)
      split
      · rename_i t ht
        split
        · rename_i S hS
          exact .check (.component (ht ▸ TypeIn.expr r.id) (List.mem_of_getElem? hS))
        · exact .panic _
      · exact .panic _

private theorem s_spec (names type values) :
    Good P (inValueSpec (P.at_ a) P.conv names type values) (inValueSpec (P.at_ b) P.conv names type values) := by
  unfold inValueSpec
  split
  · exact .nil
  · exact .nil
  · rename_i v vs type
    refine .fact h (.expr type) fun ms => ?_
    split
    · exact .map _ fun x _ => .expr ms _ x
    · show Good P (match P.env.typeOf v.id with | .tuple t => _ | _ => _) (match P.env.typeOf v.id with | .tuple t => _ | _ => _)
      split
      · rename_i t ht
        refine .eachIdx _ _ fun i _ _ => ?_
        split
        · rename_i S hS
          exact .check (.component (ht ▸ TypeIn.expr v.id) (List.mem_of_getElem? hS))
        · exact .panic _
      · exact .panic _

private theorem s_explicit {T : GoType} (hT : TypeIn P T) (args) : Good P (explicit (P.at_ a) T args) (explicit (P.at_ b) T args) := by
  unfold explicit
  refine .fact h hT fun ms => ?_
  split
  · exact .expr ms _ _
  · exact .panic _

private theorem s_fcall {s : Nat} (hs : TypeIn P (.signature s)) (args) :
    Good P (inFunctionCall (P.at_ a) P.conv s args) (inFunctionCall (P.at_ b) P.conv s args) := by
  unfold inFunctionCall
  refine .append (.eachIdx _ _ fun i p hp => .fact h (.param hs hp) fun ms => ?_) ?_
  · refine .cons (.at_ ms _ args i) ?_
    split
    · exact .map _ fun x _ => .expr ms _ x
    · exact .nil
  · split
    · split
      · exact .panic _
      · rename_i e he
        refine .fact h (.slice (.param hs (List.mem_of_getLast? he))) fun ms => .map _ fun x _ => .expr ms _ x
      · exact .nil
    · exact .nil

private theorem s_call (fn args) : Good P (inCall (P.at_ a) P.conv fn args) (inCall (P.at_ b) P.conv fn args) := by
  unfold inCall
  split
  · exact .nil
  · have ho : TypeIn P (P.env.typeOf fn.id) := .expr fn.id
    show Good P (match P.env.typeOf fn.id with | .signature s => _ | t => _) (match P.env.typeOf fn.id with | .signature s => _ | t => _)
    revert ho
    cases P.env.typeOf fn.id with
    | signature s => exact fun ho => s_fcall h ho args
    | _ => exact fun ho => s_explicit h ho args

private theorem s_assert (x type) : Good P (inTypeAssert (P.at_ a) P.conv x type) (inTypeAssert (P.at_ b) P.conv x type) := by
  unfold inTypeAssert
  cases type with
  | none => exact .nil
  | some type =>
    refine .fact h (.expr type) fun ms => ?_
    show Good P (match getUnderlyingType P.conv (P.env.typeOf type) with | .interface n => _ | _ => _)
      (match getUnderlyingType P.conv (P.env.typeOf type) with | .interface n => _ | _ => _)
    split
    · show Good P (if P.conv.implements (P.env.typeOf x.id) _ = true then _ else _) (if P.conv.implements (P.env.typeOf x.id) _ = true then _ else _)
      split
      · exact .check (.expr x.id)
      · exact .nil
    · exact .check (.expr x.id)

private theorem s_case {S : GoType} (hS : TypeIn P S) (types) : Good P (inCase (P.at_ a) P.conv S types) (inCase (P.at_ b) P.conv S types) := by
  unfold inCase
  refine .flatMap _ fun e _ => .fact h (.expr e.id) fun ms => ?_
  show Good P (match getUnderlyingType P.conv (P.env.typeOf e.id) with | .interface n => _ | _ => _)
    (match getUnderlyingType P.conv (P.env.typeOf e.id) with | .interface n => _ | _ => _)
  split
  · split
    · exact .check hS
    · exact .nil
  · exact .nil

private theorem s_switch (x cases_) : Good P (inTypeSwitch (P.at_ a) P.conv x cases_) (inTypeSwitch (P.at_ b) P.conv x cases_) := by
  unfold inTypeSwitch
  split
  · split
    · refine .flatMap _ fun c _ => ?_
      split
      · exact s_case h (.expr _) _
      · exact .panic _
    · exact .panic _
  · exact .nil

private theorem s_index (x i) : Good P (inIndex (P.at_ a) P.conv x i) (inIndex (P.at_ b) P.conv x i) := by
  unfold inIndex
  have ho : TypeIn P (getUnderlyingType P.conv (P.env.typeOf x.id)) := occurs_under (.expr x.id)
  show Good P (match getUnderlyingType P.conv (P.env.typeOf x.id) with | .map key _ => _ | _ => _)
    (match getUnderlyingType P.conv (P.env.typeOf x.id) with | .map key _ => _ | _ => _)
  split
  · rename_i he
    exact .fact h (.key (he ▸ ho)) fun ms => .expr ms _ i
  · exact .nil

omit h in
private theorem s_keyed (ms name T) : ∀ es, Good P (keyedValue (P.at_ a) ms name T es) (keyedValue (P.at_ b) ms name T es)
  | [] => .nil
  | e :: es => by
    unfold keyedValue
    split
    · exact .nil
    · rename_i heq
      cases heq
      split
      · exact .expr ms _ _
      · exact s_keyed ms name T _
    · exact .panic _

private theorem s_struct {n : Nat} (hn : TypeIn P (.struct n)) (elts) :
    Good P (inStructLit (P.at_ a) elts (P.conv.fields n)) (inStructLit (P.at_ b) elts (P.conv.fields n)) := by
  unfold inStructLit
  cases elts with
  | nil => exact .nil
  | cons first es =>
    refine .eachIdx _ _ fun i f hf => .fact h (.field hn hf) fun ms => ?_
    split
    · exact s_keyed ms _ _ _
    · exact .at_ ms _ _ _

private theorem s_values (elts) {T : GoType} (hT : TypeIn P T) : Good P (inValues (P.at_ a) elts T) (inValues (P.at_ b) elts T) := by
  unfold inValues
  exact .fact h hT fun ms => .map _ fun x _ => .expr ms _ _

private theorem s_keys (elts) {T : GoType} (hT : TypeIn P T) : Good P (inKeys (P.at_ a) elts T) (inKeys (P.at_ b) elts T) := by
  unfold inKeys
  refine .fact h hT fun ms => .map _ fun x _ => ?_
  cases x <;> first | exact .panic _ | exact .expr ms _ _

private theorem s_composite (id elts) : Good P (inComposite (P.at_ a) P.conv id elts) (inComposite (P.at_ b) P.conv id elts) := by
  unfold inComposite
  split
  · exact .nil
  · have ho : TypeIn P (getUnderlyingType P.conv (P.env.typeOf id)) := occurs_under (.expr id)
    show Good P (match getUnderlyingType P.conv (P.env.typeOf id) with
      | .struct n => _ | .slice e => _ | .array e => _ | .map k e => _ | _ => _)
      (match getUnderlyingType P.conv (P.env.typeOf id) with
      | .struct n => _ | .slice e => _ | .array e => _ | .map k e => _ | _ => _)
    revert ho
    cases getUnderlyingType P.conv (P.env.typeOf id) with
    | struct n => exact fun ho => s_struct h ho elts
    | slice e => exact fun ho => s_values h elts (.slice ho)
    | array e => exact fun ho => s_values h elts (.array ho)
    | map k e => exact fun ho => (s_values h elts (.value ho)).append (s_keys h elts (.key ho))
    | _ => exact fun _ => .nil

private theorem s_fields (results) : ∀ p fs, Good P (resultFields (P.at_ a) results p fs) (resultFields (P.at_ b) results p fs)
  | _, [] => .nil
  | p, f :: fs => by
    unfold resultFields
    exact (Good.fact h (.expr f.typ) fun ms => .map _ fun i _ => .at_ ms _ _ _).append (s_fields results _ fs)

private theorem s_return (results w) : Good P (inReturn (P.at_ a) results w) (inReturn (P.at_ b) results w) := by
  unfold inReturn
  split
  · exact .nil
  · split
    · exact .panic _
    · exact s_fields h results 0 _

private theorem s_rkey (key x) : Good P (inRangeKey (P.at_ a) P.conv key x) (inRangeKey (P.at_ b) P.conv key x) := by
  unfold inRangeKey
  cases key with
  | none => exact .nil
  | some key =>
    refine .fact h (.expr key.id) fun ms => ?_
    have ho : TypeIn P (getUnderlyingType P.conv (P.env.typeOf x.id)) := occurs_under (.expr x.id)
    show Good P (match getUnderlyingType P.conv (P.env.typeOf x.id) with | .map k _ => _ | .chan e => _ | _ => _)
      (match getUnderlyingType P.conv (P.env.typeOf x.id) with | .map k _ => _ | .chan e => _ | _ => _)
    revert ho
    cases getUnderlyingType P.conv (P.env.typeOf x.id) with
    | map k e => exact fun ho => .check (.key ho)
    | chan e => exact fun ho => .check (.chan ho)
    | _ => exact fun _ => .panic _

omit h in
theorem occurs_elem {T S : GoType} (hT : TypeIn P T) (hS : elemType T = some S) : TypeIn P S := by
  unfold elemType at hS
  split at hS
  · cases hS; exact .array (.pointer hT)
  · cases hS; exact .slice hT
  · cases hS; exact .array hT
  · cases hS; exact .value hT
  · cases hS; exact .chan hT
  · cases hS

private theorem s_rvalue (key value x) : Good P (inRangeValue (P.at_ a) P.conv key value x) (inRangeValue (P.at_ b) P.conv key value x) := by
  unfold inRangeValue
  split
  · rename_i value
    refine .fact h (.expr value.id) fun ms => ?_
    have ho : TypeIn P (getUnderlyingType P.conv (P.env.typeOf x.id)) := occurs_under (.expr x.id)
    show Good P (match elemType (getUnderlyingType P.conv (P.env.typeOf x.id)) with | some e => _ | none => _)
      (match elemType (getUnderlyingType P.conv (P.env.typeOf x.id)) with | some e => _ | none => _)
    split
    · rename_i he
      exact .check (occurs_elem ho he)
    · exact .panic _
  · exact .nil

private theorem s_send (ch v) : Good P (inSend (P.at_ a) P.conv ch v) (inSend (P.at_ b) P.conv ch v) := by
  unfold inSend
  have ho : TypeIn P (getUnderlyingType P.conv (P.env.typeOf ch.id)) := occurs_under (.expr ch.id)
  show Good P (match getUnderlyingType P.conv (P.env.typeOf ch.id) with | .chan e => _ | _ => _)
    (match getUnderlyingType P.conv (P.env.typeOf ch.id) with | .chan e => _ | _ => _)
  split
  · rename_i he
    exact .fact h (.chan (he ▸ ho)) fun ms => .expr ms _ _
  · exact .panic _

private theorem s_node (w n) : Good P (atNode (P.at_ a) P.conv w n) (atNode (P.at_ b) P.conv w n) := by
  cases n <;> unfold atNode
  case assign => exact s_assign h _ _
  case valueSpec => exact s_spec h _ _ _
  case call => exact s_call h _ _
  case typeAssert => exact s_assert h _ _
  case typeSwitch => exact s_switch h _ _
  case index => exact s_index h _ _
  case compositeLit => exact s_composite h _ _
  case ret =>
    cases w with
    | none => exact .panic _
    | some t => exact s_return h _ t
  case range => exact (s_rkey h _ _).append (s_rvalue h _ _ _)
  case send => exact s_send h _ _
  all_goals exact .nil

private theorem s_walk : ∀ es w, Good P (walk (P.at_ a) P.conv w es) (walk (P.at_ b) P.conv w es)
  | [], w => by unfold walk; exact .nil
  | .enter f :: es, w => by
    unfold walk
    split
    · exact .panic _
    · exact s_walk es _
  | .leave f :: es, w => by
    unfold walk
    split
    · exact .panic _
    · exact s_walk es _
  | .push n :: es, w => by
    unfold walk
    exact (s_node h _ n).append (s_walk es _)
  | .pop n :: es, w => by
    unfold walk
    split
    · exact .panic _
    · exact s_walk es _
    · exact s_walk es _

theorem steps_like : Good P (steps (P.at_ a) P.conv P.top) (steps (P.at_ b) P.conv P.top) := s_walk h _ _

private theorem m_codes {T : GoType} (hT : TypeIn P T) (plan : FnId → Plan FnId Diag) (n m st) :
    methodCodes (P.at_ b) plan n T m st = methodCodes (P.at_ a) plan n T m st := by
  unfold methodCodes
  have e1 : (P.at_ b).searchMethodType T m = (P.at_ a).searchMethodType T m := rfl
  have e2 : (P.at_ b).searchMethod T m = (P.at_ a).searchMethod T m := rfl
  rw [e1, e2]
  cases hs : (P.at_ a).searchMethodType T m with
  | none => rfl
  | some o =>
    have hm : Meets P o := by
      refine .method (m := m) hT ?_
      unfold Env.searchMethodType at hs
      split at hs
      · rename_i hx; cases hs; exact .inl hx
      · split at hs
        · cases hs
        · exact .inr hs
    have : (P.at_ b).facts.codes o = (P.at_ a).facts.codes o := (h o hm).codes.symm
    dsimp only
    rw [this]

private theorem m_check {c : Check} (hc : TypeIn P c.source) (o) (plan : FnId → Plan FnId Diag) (n) : ∀ ms st,
    checkMethods (P.at_ b) o plan n c ms st = checkMethods (P.at_ a) o plan n c ms st
  | [], _ => by unfold checkMethods; rfl
  | (m, al) :: ms, st => by
    unfold checkMethods
    rw [m_codes h hc]
    simp only [m_check hc o plan n ms]

theorem runSteps_like (o) (plan : FnId → Plan FnId Diag) (n) : ∀ (ss : List Step), (∀ c, .check c ∈ ss → TypeIn P c.source) → ∀ st,
    runSteps (P.at_ b) o plan n ss st = runSteps (P.at_ a) o plan n ss st
  | [], _, _ => by unfold runSteps; rfl
  | .panic l :: ss, _, _ => by unfold runSteps; rfl
  | .check c :: ss, hs, st => by
    unfold runSteps
    have e : runCheck (P.at_ b) o plan n c st = runCheck (P.at_ a) o plan n c st := by
      unfold runCheck
      rw [m_check h (hs c (by simp))]
    rw [e]
    simp only [runSteps_like o plan n ss fun c hc => hs c (by simp [hc])]

end Conv
end Serum
