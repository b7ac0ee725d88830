import Verif.RunPlan
import Verif.AcceptLemmas

/-! # Conversions and the order in which the methods of interfaces are recorded

The facts about interfaces reach the checks of conversions unchanged: with the methods of the interfaces in another order, the
same checks are done, with the methods in another order. -/

namespace Serum.Conv

/-- The check with changed records of interfaces. -/
def Check.mapFacts (f : Object → List (GoString × CodeSet) → List (GoString × CodeSet)) (c : Check) : Check :=
  { c with methods := match getNamedType c.target with | some o => f o c.methods | none => c.methods }

/-- The step with changed records of interfaces. -/
def Step.mapFacts (f : Object → List (GoString × CodeSet) → List (GoString × CodeSet)) : Step → Step
  | .panic loc => .panic loc
  | .check c => .check (c.mapFacts f)

section
variable (env : Env) (info : Info) (i : Object → Option (List (GoString × CodeSet)))
  (f : Object → List (GoString × CodeSet) → List (GoString × CodeSet))

local notation "env'" => env.withIfaces i
local notation "M" => Step.mapFacts f

theorem withFact_map (hi : ∀ o, i o = (env.facts.interface o).map (f o)) {target : GoType} {k k' : List (GoString × CodeSet) → List Step}
    (h : ∀ o, getNamedType target = some o → ∀ ms, k' (f o ms) = (k ms).map M) :
    withFact env' target k' = (withFact env target k).map M := by
  unfold withFact Interfaces.importFact
  cases ht : getNamedType target with
  | none => rfl
  | some o =>
    simp only [Option.bind_some, Env.withIfaces, hi o]
    cases env.facts.interface o with
    | none => rfl
    | some ms => exact h o ht ms

theorem check_map {target : GoType} {o : Object} (ht : getNamedType target = some o) (ms : List (GoString × CodeSet)) (s : GoType)
    (n : NodeId) : Step.check ⟨f o ms, target, s, n⟩ = M (.check ⟨ms, target, s, n⟩) := by
  simp [Step.mapFacts, Check.mapFacts, ht]

theorem checkExpr_map {target : GoType} {o : Object} (ht : getNamedType target = some o) (ms : List (GoString × CodeSet)) (e : Node) :
    checkExpr env' (f o ms) target e = M (checkExpr env ms target e) := check_map f ht _ _ _

theorem checkAt_map {target : GoType} {o : Object} (ht : getNamedType target = some o) (ms : List (GoString × CodeSet)) (es : List Node)
    (n : Nat) : checkAt env' (f o ms) target es n = M (checkAt env ms target es n) := by
  unfold checkAt
  split
  · exact checkExpr_map env i f ht _ _
  · rfl

theorem eachIdx_map {α : Type} {k k' : Nat → α → List Step} (h : ∀ n x, k' n x = (k n x).map M) :
    ∀ n (l : List α), eachIdx k' n l = (eachIdx k n l).map M
  | _, [] => rfl
  | n, x :: l => by simp only [eachIdx, List.map_append, h, eachIdx_map h (n + 1) l]

theorem flatMap_map {α : Type} {k k' : α → List Step} (h : ∀ x, k' x = (k x).map M) : ∀ l : List α, l.flatMap k' = (l.flatMap k).map M
  | [] => rfl
  | x :: l => by simp only [List.flatMap_cons, List.map_append, h, flatMap_map h l]

theorem map_checkExpr {target : GoType} {o : Object} (ht : getNamedType target = some o) (ms : List (GoString × CodeSet)) (l : List Node) :
    l.map (checkExpr env' (f o ms) target) = (l.map (checkExpr env ms target)).map M := by
  rw [List.map_map]
  exact List.map_congr_left fun e _ => checkExpr_map env i f ht ms e

variable (hi : ∀ o, i o = (env.facts.interface o).map (f o))
include hi

theorem inAssign_map (lhs rhs : List Node) : inAssign env' info lhs rhs = (inAssign env info lhs rhs).map M := by
  unfold inAssign
  refine eachIdx_map f (fun n l => withFact_map env i f hi fun o ho ms => ?_) _ _
  split
  · rw [List.map_singleton]; exact congrArg (· :: []) (checkAt_map env i f ho ms rhs n)
  · split
    · rfl
    · split
      · rename_i t ht
        rw [show env.typeOf _ = .tuple t from ht]
        simp only
        split
        · rw [List.map_singleton]; exact congrArg (· :: []) (check_map f ho ms _ _)
        · rfl
      · rename_i h
        split
        · rename_i t ht; exact absurd ht (h t)
        · rfl

theorem inValueSpec_map (names : List Ident) (type : Option NodeId) (values : List Node) :
    inValueSpec env' info names type values = (inValueSpec env info names type values).map M := by
  unfold inValueSpec
  split
  · rfl
  · rfl
  · refine withFact_map env i f hi fun o ho ms => ?_
    split
    · exact map_checkExpr env i f ho ms _
    · rename_i v vs type _
      show (match env.typeOf v.id with | .tuple t => _ | _ => _) = _
      cases env.typeOf v.id with
      | tuple t =>
        refine eachIdx_map f (fun n _ => ?_) _ _
        split
        · rw [List.map_singleton]; exact congrArg (· :: []) (check_map f ho ms _ _)
        · rfl
      | _ => rfl

theorem explicit_map (target : GoType) (args : List Node) : explicit env' target args = (explicit env target args).map M := by
  unfold explicit
  refine withFact_map env i f hi fun o ho ms => ?_
  split
  · rw [List.map_singleton]; exact congrArg (· :: []) (checkExpr_map env i f ho ms _)
  · rfl

theorem inFunctionCall_map (s : Nat) (args : List Node) : inFunctionCall env' info s args = (inFunctionCall env info s args).map M := by
  unfold inFunctionCall
  simp only [List.map_append]
  congr 1
  · refine eachIdx_map f (fun n p => withFact_map env i f hi fun o ho ms => ?_) _ _
    rw [List.map_cons, checkAt_map env i f ho]
    congr 1
    split
    · exact map_checkExpr env i f ho ms _
    · rfl
  · split
    · split
      · rfl
      · exact withFact_map env i f hi fun o ho ms => map_checkExpr env i f ho ms _
      · rfl
    · rfl

theorem inCall_map (fn : Node) (args : List Node) : inCall env' info fn args = (inCall env info fn args).map M := by
  unfold inCall
  split
  · rfl
  · show (match env.typeOf fn.id with | .signature s => _ | t => _) = _
    cases env.typeOf fn.id with
    | signature s => exact inFunctionCall_map env info i f hi s args
    | _ => exact explicit_map env i f hi _ args

theorem inTypeAssert_map (x : Node) (type : Option NodeId) : inTypeAssert env' info x type = (inTypeAssert env info x type).map M := by
  unfold inTypeAssert
  split
  · rfl
  · rename_i type
    refine withFact_map env i f hi fun o ho ms => ?_
    show (match getUnderlyingType info (env.typeOf type) with | .interface n => _ | _ => _) = _
    cases getUnderlyingType info (env.typeOf type) with
    | interface n =>
      show (if info.implements (env.typeOf x.id) n then _ else _) = List.map _ (if info.implements (env.typeOf x.id) n then _ else _)
      split
      · rw [List.map_singleton]; exact congrArg (· :: []) (check_map f ho ms _ _)
      · rfl
    | _ => exact congrArg (· :: []) (check_map f ho ms _ _)

theorem inCase_map (source : GoType) (types : List Node) : inCase env' info source types = (inCase env info source types).map M := by
  unfold inCase
  refine flatMap_map f (fun e => ?_) types
  refine withFact_map env i f hi fun o ho ms => ?_
  show (match getUnderlyingType info (env.typeOf e.id) with | .interface n => _ | _ => _) = _
  cases getUnderlyingType info (env.typeOf e.id) with
  | interface n =>
    show (if info.implements source n then _ else _) = List.map _ (if info.implements source n then _ else _)
    split
    · rw [List.map_singleton]; exact congrArg (· :: []) (check_map f ho ms _ _)
    · rfl
  | _ => rfl

theorem inTypeSwitch_map (assign : Node) (cases : List Node) : inTypeSwitch env' info assign cases = (inTypeSwitch env info assign cases).map M := by
  unfold inTypeSwitch
  split
  · split
    · refine flatMap_map f (fun c => ?_) cases
      split
      · exact inCase_map env info i f hi _ _
      · rfl
    · rfl
  · rfl

theorem inIndex_map (x idx : Node) : inIndex env' info x idx = (inIndex env info x idx).map M := by
  unfold inIndex
  show (match getUnderlyingType info (env.typeOf x.id) with | .map key _ => _ | _ => _) = _
  cases getUnderlyingType info (env.typeOf x.id) with
  | map k e => exact withFact_map env i f hi fun o ho ms => congrArg (· :: []) (checkExpr_map env i f ho ms _)
  | _ => rfl

omit hi in
theorem keyedValue_map {type : GoType} {o : Object} (ho : getNamedType type = some o) (ms : List (GoString × CodeSet)) (name : GoString) :
    ∀ elts : List Node, keyedValue env' (f o ms) name type elts = (keyedValue env ms name type elts).map M := by
  intro elts
  induction elts with
  | nil => rfl
  | cons e es ih =>
    unfold keyedValue
    split
    · rfl
    · rename_i h
      cases h
      split
      · exact congrArg (· :: []) (checkExpr_map env i f ho ms _)
      · exact ih
    · rfl

theorem inStructLit_map (elts : List Node) (fields : List (GoString × GoType)) :
    inStructLit env' elts fields = (inStructLit env elts fields).map M := by
  unfold inStructLit
  split
  · rfl
  · refine eachIdx_map f (fun n p => withFact_map env i f hi fun o ho ms => ?_) _ _
    split
    · exact keyedValue_map env i f ho ms _ _
    · exact congrArg (· :: []) (checkAt_map env i f ho ms _ _)

theorem inValues_map (elts : List Node) (elem : GoType) : inValues env' elts elem = (inValues env elts elem).map M := by
  unfold inValues
  refine withFact_map env i f hi fun o ho ms => ?_
  rw [List.map_map]
  exact List.map_congr_left fun e _ => checkExpr_map env i f ho ms _

theorem inKeys_map (elts : List Node) (key : GoType) : inKeys env' elts key = (inKeys env elts key).map M := by
  unfold inKeys
  refine withFact_map env i f hi fun o ho ms => ?_
  rw [List.map_map]
  refine List.map_congr_left fun e _ => ?_
  cases e with
  | keyValue id k v => exact checkExpr_map env i f ho ms _
  | _ => rfl

theorem inComposite_map (id : NodeId) (elts : List Node) : inComposite env' info id elts = (inComposite env info id elts).map M := by
  unfold inComposite
  split
  · rfl
  · show (match getUnderlyingType info (env.typeOf id) with
      | .struct n => _ | .slice elem => _ | .array elem => _ | .map key elem => _ | _ => _) = _
    cases getUnderlyingType info (env.typeOf id) with
    | struct n => exact inStructLit_map env i f hi _ _
    | slice e => exact inValues_map env i f hi _ _
    | array e => exact inValues_map env i f hi _ _
    | map k e =>
      show inValues env' elts e ++ inKeys env' elts k = (inValues env elts e ++ inKeys env elts k).map M
      rw [List.map_append, inValues_map env i f hi, inKeys_map env i f hi]
    | _ => rfl

theorem resultFields_map (results : List Node) : ∀ (n : Nat) (fs : List Field),
    resultFields env' results n fs = (resultFields env results n fs).map M
  | _, [] => rfl
  | n, fl :: fs => by
    simp only [resultFields, List.map_append]
    rw [resultFields_map results _ fs]
    congr 1
    refine withFact_map env i f hi fun o ho ms => ?_
    rw [List.map_map]
    exact List.map_congr_left fun e _ => checkAt_map env i f ho ms _ _

theorem inReturn_map (results : List Node) (w : FuncType) : inReturn env' results w = (inReturn env results w).map M := by
  unfold inReturn
  split
  · rfl
  · split
    · rfl
    · exact resultFields_map env i f hi _ _ _

theorem inRangeKey_map (key : Option Node) (x : Node) : inRangeKey env' info key x = (inRangeKey env info key x).map M := by
  unfold inRangeKey
  split
  · rfl
  · refine withFact_map env i f hi fun o ho ms => ?_
    show (match getUnderlyingType info (env.typeOf x.id) with | .map k _ => _ | .chan e => _ | _ => _) = _
    cases getUnderlyingType info (env.typeOf x.id) with
    | map k e => exact congrArg (· :: []) (check_map f ho ms _ _)
    | chan e => exact congrArg (· :: []) (check_map f ho ms _ _)
    | _ => rfl

theorem inRangeValue_map (key value : Option Node) (x : Node) : inRangeValue env' info key value x = (inRangeValue env info key value x).map M := by
  unfold inRangeValue
  split
  · refine withFact_map env i f hi fun o ho ms => ?_
    show (match elemType (getUnderlyingType info (env.typeOf x.id)) with | some e => _ | none => _) = _
    cases elemType (getUnderlyingType info (env.typeOf x.id)) with
    | some e => exact congrArg (· :: []) (check_map f ho ms _ _)
    | none => rfl
  · rfl

theorem inSend_map (ch value : Node) : inSend env' info ch value = (inSend env info ch value).map M := by
  unfold inSend
  show (match getUnderlyingType info (env.typeOf ch.id) with | .chan elem => _ | _ => _) = _
  cases getUnderlyingType info (env.typeOf ch.id) with
  | chan e => exact withFact_map env i f hi fun o ho ms => congrArg (· :: []) (checkExpr_map env i f ho ms _)
  | _ => rfl

theorem atNode_map (w : Option FuncType) (n : Node) : atNode env' info w n = (atNode env info w n).map M := by
  unfold atNode
  split
  · exact inAssign_map env info i f hi _ _
  · exact inValueSpec_map env info i f hi _ _ _
  · exact inCall_map env info i f hi _ _
  · exact inTypeAssert_map env info i f hi _ _
  · exact inTypeSwitch_map env info i f hi _ _
  · exact inIndex_map env info i f hi _ _
  · exact inComposite_map env info i f hi _ _
  · split
    · exact inReturn_map env i f hi _ _
    · rfl
  · rw [List.map_append, inRangeKey_map env info i f hi, inRangeValue_map env info i f hi]
  · exact inSend_map env info i f hi _ _
  · rfl

theorem walk_map : ∀ (es : List Event) (w : Walk), walk env' info w es = (walk env info w es).map M
  | [], _ => rfl
  | .enter g :: es, w => by
    unfold walk
    split
    · rfl
    · exact walk_map es _
  | .leave g :: es, w => by
    unfold walk
    split
    · rfl
    · exact walk_map es _
  | .push n :: es, w => by
    unfold walk
    simp only [List.map_append]
    rw [atNode_map env info i f hi, walk_map es]
  | .pop n :: es, w => by
    unfold walk
    split
    · rfl
    · exact walk_map es _
    · exact walk_map es _

theorem steps_map (decls : List TopDecl) : steps env' info decls = (steps env info decls).map M := by
  unfold steps
  rw [walk_map env info i f hi]
  rfl

end

/-! ### The reports, in order -/

variable {D : Type} {env : Env} {o : Orders} {plan : FnId → Plan FnId D} {fuel : Nat} {G : FnId → Prop}

open Classical in
/-- The report for one method of a check, if there is one. -/
noncomputable def expected (env : Env) (plan : FnId → Plan FnId D) (c : Check) (x : GoString × CodeSet) : Option Report :=
  if h : ∃ l, l ≠ [] ∧ Excess env plan c.source x.1 x.2 l then some ⟨c.at_, getNamedType c.target, x.1, h.choose⟩ else none

theorem excess_unique {T : GoType} {m : GoString} {a : CodeSet} {l l' : List GoString} (h : Excess env plan T m a l)
    (h' : Excess env plan T m a l') : l = l' := by
  refine Props.Reports.ascending_unique h.2.1 h'.2.1 ?_
  rw [List.perm_ext_iff_of_nodup h.1 h'.1]
  intro c; rw [h.2.2, h'.2.2]

theorem checkMethods_list (ho : o.Fair) (hone : DeclaredOnce env) (hG : ∀ x y, G x → Calls plan x y → G y)
    (hl : ∀ f, G f → ∀ z ∈ (plan f).visits, ¬ Reach (Calls plan) z f)
    (c : Check) : ∀ (ms : List (GoString × CodeSet)) (st : Search FnId D), Search.InvG G plan [] st →
    (∀ x ∈ ms, MethodIn env G c.source x.1) → ∀ rs st',
    checkMethods env o plan fuel c ms st = .ok (rs, st') → rs = ms.filterMap (expected env plan c)
  | [], st, hinv, hin, rs, st', h => by
    simp only [checkMethods] at h
    cases h
    rfl
  | (m, allowed) :: ms, st, hinv, hin, rs, st', h => by
    simp only [checkMethods, bind, Except.bind] at h
    cases hm : methodCodes env plan fuel c.source m st with
    | error e => rw [hm] at h; cases h
    | ok r1 =>
      obtain ⟨S, st1⟩ := r1
      simp only [hm] at h
      obtain ⟨h1, h2, h3⟩ := methodCodes_spec hone hG hl hinv hm
      cases hr : checkMethods env o plan fuel c ms st1 with
      | error e => rw [hr] at h; cases h
      | ok r2 =>
        obtain ⟨rs2, st2⟩ := r2
        simp only [hr, pure, Except.pure] at h
        cases h
        rw [checkMethods_list ho hone hG hl c ms st1 h1 (fun x hx => hin x (List.mem_cons_of_mem _ hx)) rs2 _ hr]
        have hu := unexpected_iff (allowed := allowed) ho (fun c => ⟨h2.1 c, h2.2 (hin _ (List.mem_cons_self ..)) c⟩)
        cases hun : unexpectedCodes o.diff o.slice S allowed with
        | none =>
          have : expected env plan c (m, allowed) = none := by
            unfold expected
            rw [dif_neg]
            rintro ⟨l, hl⟩
            rw [(hu l).2 hl] at hun; cases hun
          rw [List.filterMap_cons_none this]; rfl
        | some l =>
          have he := (hu l).1 hun
          have hex : ∃ l, l ≠ [] ∧ Excess env plan c.source m allowed l := ⟨l, he⟩
          have : expected env plan c (m, allowed) = some ⟨c.at_, getNamedType c.target, m, l⟩ := by
            unfold expected
            rw [dif_pos hex, excess_unique hex.choose_spec.2 he.2]
          rw [List.filterMap_cons_some this]; rfl

open Classical in
/-- The reports of one step. -/
noncomputable def expectedAt (env : Env) (o : Orders) (plan : FnId → Plan FnId D) : Step → List Report
  | .panic _ => []
  | .check c => if c.source = c.target ∨ c.source = .untypedNil then [] else (o.methods c.methods).filterMap (expected env plan c)

theorem runCheck_list (ho : o.Fair) (hone : DeclaredOnce env) (hG : ∀ x y, G x → Calls plan x y → G y)
    (hl : ∀ f, G f → ∀ z ∈ (plan f).visits, ¬ Reach (Calls plan) z f)
    (c : Check) (st : Search FnId D) (hinv : Search.InvG G plan [] st) {rs : List Report} {st' : Search FnId D}
    (hin : c.source ≠ c.target → c.source ≠ .untypedNil → ∀ x ∈ c.methods, MethodIn env G c.source x.1)
    (h : runCheck env o plan fuel c st = .ok (rs, st')) : rs = expectedAt env o plan (.check c) := by
  unfold runCheck at h
  simp only [expectedAt]
  split at h
  · rename_i he
    cases h
    rw [if_pos (.inl he)]
  · rename_i hne
    split at h
    · rename_i hn
      cases h
      rw [if_pos (.inr hn)]
    · rename_i hn
      rw [if_neg (not_or.2 ⟨hne, hn⟩)]
      exact checkMethods_list ho hone hG hl c _ st hinv (fun x hx => hin hne hn x ((ho.methods _).mem_iff.1 hx)) rs st' h

/-- The reports of a run of the checks. -/
theorem runSteps_list (ho : o.Fair) (hone : DeclaredOnce env) (hG : ∀ x y, G x → Calls plan x y → G y)
    (hl : ∀ f, G f → ∀ z ∈ (plan f).visits, ¬ Reach (Calls plan) z f) :
    ∀ (ss : List Step) (st : Search FnId D), Search.InvG G plan [] st →
    (∀ c, .check c ∈ ss → c.source ≠ c.target → c.source ≠ .untypedNil → ∀ x ∈ c.methods, MethodIn env G c.source x.1) →
    ∀ rs st', runSteps env o plan fuel ss st = .ok (rs, st') →
    rs = ss.flatMap (expectedAt env o plan)
  | [], st, hinv, hin, rs, st', h => by
    simp only [runSteps] at h
    cases h
    rfl
  | .panic l :: ss, st, hinv, hin, rs, st', h => by simp only [runSteps] at h; cases h
  | .check c :: ss, st, hinv, hin, rs, st', h => by
    simp only [runSteps, bind, Except.bind] at h
    cases hm : runCheck env o plan fuel c st with
    | error e => rw [hm] at h; cases h
    | ok r1 =>
      obtain ⟨rs1, st1⟩ := r1
      simp only [hm] at h
      obtain ⟨h1, h2, h3⟩ := runCheck_spec ho hone hG hl c st hinv hm
      cases hr : runSteps env o plan fuel ss st1 with
      | error e => rw [hr] at h; cases h
      | ok r2 =>
        obtain ⟨rs2, st2⟩ := r2
        simp only [hr, pure, Except.pure] at h
        cases h
        rw [runSteps_list ho hone hG hl ss st1 h1 (fun c hc => hin c (List.mem_cons_of_mem _ hc)) rs2 _ hr,
          runCheck_list ho hone hG hl c st hinv (hin c (List.mem_cons_self ..)) hm]
        rfl

/-- The same checks, with the methods in another order, give the same reports. -/
theorem expected_perm {o' : Orders} (ho : o.Fair) (ho' : o'.Fair) {env' : Env}
    (f : Object → List (GoString × CodeSet) → List (GoString × CodeSet))
    (he : ∀ c x, expected env' plan (Check.mapFacts f c) x = expected env plan c x) : ∀ ss : List Step,
    (∀ c, .check c ∈ ss → (Check.mapFacts f c).methods.Perm c.methods) →
    (((ss.map (Step.mapFacts f)).flatMap (expectedAt env' o' plan))).Perm (ss.flatMap (expectedAt env o plan))
  | [], _ => .nil
  | .panic l :: ss, hp => by
    simp only [List.map_cons, List.flatMap_cons, Step.mapFacts, expectedAt, List.nil_append]
    exact expected_perm ho ho' f he ss fun c hc => hp c (List.mem_cons_of_mem _ hc)
  | .check c :: ss, hp => by
    simp only [List.map_cons, List.flatMap_cons]
    refine List.Perm.append ?_ (expected_perm ho ho' f he ss fun c hc => hp c (List.mem_cons_of_mem _ hc))
    simp only [Step.mapFacts, expectedAt]
    have h1 : (Check.mapFacts f c).source = c.source := rfl
    have h2 : (Check.mapFacts f c).target = c.target := rfl
    rw [h1, h2]
    split
    · exact .nil
    · have : (expected env' plan (Check.mapFacts f c)) = expected env plan c := funext (he c)
      rw [this]
      refine List.Perm.filterMap _ ?_
      exact ((ho'.methods _).trans (hp c (List.mem_cons_self ..))).trans (ho.methods _).symm

end Serum.Conv
