import Verif.Rearrange
import Verif.RearrangeLists
import Verif.Props.RunOrder
import Verif.Props.RunCrash

/-!
# C53 — where declarations stand does not matter
-/

namespace Serum

/-- The package with declarations in other places: other positions of functions and objects. -/
def Package.moved (P : Package) (fs : List FuncDef) (os : List ObjInfo) : Package :=
  { P with env := P.env.moved fs os P.env.methods }

namespace Props.Rearrange
open RunSpec Serum.Rearrange

variable {P : Package} {S S' : Schedule} {strict : Bool} {out out' : Outcome} {fs : List FuncDef} {os : List ObjInfo}

section congr
variable {env : Env} {ms : GoString → List FnId}

theorem tagging_moved (hM : env.Moves fs os) {d : Decls} {td : TypeDecls} {fuel : Nat} (hr : ∀ err o, getNamedType err = some o → ∀ name, name ∈ td.methodNames o ∨ name = b!"Code" →
      (ms name).filter (fun m => errorTypesSubset (td.recvType m) err) = (env.methods name).filter fun m => errorTypesSubset (td.recvType m) err) (specs : List TypeSpec) (facts : Facts) :
    findAndTagErrorTypes (env.moved fs os ms) d td fuel specs facts = findAndTagErrorTypes env d td fuel specs facts := by
  induction specs generalizing facts with
  | nil => rfl
  | cons spec specs ih =>
    have ht : typeToTag (env.moved fs os ms) = typeToTag env := rfl
    simp only [findAndTagErrorTypes, ht, tag_moved hM hr, ih]

theorem returning_moved (hM : env.Moves fs os) (l : List FnId) :
    findErrorReturningFunctions (env.moved fs os ms) l = findErrorReturningFunctions env l := by
  induction l with
  | nil => rfl
  | cons f l ih =>
    have h : checkFunctionReturnsError (env.moved fs os ms) ((env.moved fs os ms).func f).type = checkFunctionReturnsError env (env.func f).type := by
      unfold checkFunctionReturnsError
      rw [← (sameDef (ms := ms) hM f).results]
      rfl
    unfold findErrorReturningFunctions
    rw [h, ih]

theorem claim_moved (hM : env.Moves fs os) {d : Decls} (f : FnId) : claimOf (env.moved fs os ms) d strict f = claimOf env d strict f := by
  have h : findErrorCodeParamIdent (env.moved fs os ms) ((env.moved fs os ms).func f).type = findErrorCodeParamIdent env (env.func f).type := by
    funext p name
    unfold findErrorCodeParamIdent
    rw [← (sameDef (ms := ms) hM f).params]
    rfl
  unfold claimOf
  rw [h]
  rfl

theorem claims_moved (hM : env.Moves fs os) {d : Decls} (l : List FnId) :
    findClaimedErrorCodes (env.moved fs os ms) d strict l = findClaimedErrorCodes env d strict l := by
  induction l with
  | nil => rfl
  | cons f l ih => unfold findClaimedErrorCodes; rw [claim_moved hM, ih]

theorem steps_moved (hM : env.Moves fs os) {info : Conv.Info} (top : List Conv.TopDecl) :
    Conv.steps (env.moved fs os ms) info top = Conv.steps env info top := by
  have h : Conv.topEvents (env.moved fs os ms) = Conv.topEvents env := by
    funext t
    cases t with
    | func f => simp only [Conv.topEvents]; rw [(sameDef (ms := ms) hM f).body]
    | node n => rfl
  unfold Conv.steps
  rw [h]
  exact Walk.walk_moved hM _ _ _ ⟨rfl, rfl⟩

end congr

/-- **C53.** Moving declarations (within a file or to another one) without changing their order changes nothing at all. -/
theorem positions (hM : P.env.Moves fs os) (S : Schedule) (strict : Bool) :
    runVerify (P.moved fs os) S strict = runVerify P S strict := by
  have hat : ∀ facts, (P.at_ facts).Moves fs os := fun _ => ⟨hM.func, hM.kind, hM.decl, hM.around, hM.count, hM.size⟩
  have e : ∀ facts, (P.moved fs os).at_ facts = (P.at_ facts).moved fs os (P.at_ facts).methods := fun _ => rfl
  have hplan : ∀ facts, (P.moved fs os).plan facts = P.plan facts := by
    intro facts
    have hd : (P.moved fs os).depth = P.depth := congrArg (· + 4) hM.count
    unfold Package.plan
    rw [hd]
    exact funext fun f => plan_moved (hat facts) (fun _ _ => rfl) _
  have hfun : ∀ facts, (P.moved fs os).functions facts = P.functions facts := by
    intro facts
    have hs : (P.moved fs os).env.funcs.length = P.env.funcs.length := hM.size
    unfold Package.functions
    rw [hplan, hs]
    rfl
  have htag : findAndTagErrorTypes (P.moved fs os).start (P.moved fs os).decls (P.moved fs os).types (P.moved fs os).depth (P.moved fs os).specs (P.moved fs os).env.facts =
      findAndTagErrorTypes P.start P.decls P.types P.depth P.specs P.env.facts := by
    have hd : (P.moved fs os).depth = P.depth := congrArg (· + 4) hM.count
    rw [hd]
    exact tagging_moved (env := P.start) (hat P.env.facts) (fun _ _ _ _ _ => rfl) _ _
  have hret : ∀ facts l, findErrorReturningFunctions ((P.moved fs os).at_ facts) l = findErrorReturningFunctions (P.at_ facts) l :=
    fun facts l => returning_moved (hat facts) l
  have hcl : ∀ facts l, findClaimedErrorCodes ((P.moved fs os).at_ facts) P.decls strict l = findClaimedErrorCodes (P.at_ facts) P.decls strict l :=
    fun facts l => claims_moved (hat facts) l
  have hst : ∀ facts, Conv.steps ((P.moved fs os).at_ facts) P.conv P.top = Conv.steps (P.at_ facts) P.conv P.top :=
    fun facts => steps_moved (hat facts) P.top
  have hif : ∀ facts, Interfaces.find ((P.moved fs os).at_ facts) = Interfaces.find (P.at_ facts) := by
    intro facts
    set_option smartUnfolding false in rfl
  have hrun : ∀ facts, @Conv.runSteps Diag ((P.moved fs os).at_ facts) = @Conv.runSteps Diag (P.at_ facts) := by
    intro facts
    set_option smartUnfolding false in rfl
  unfold runVerify
  rw [htag]
  show (do
    let (facts, tags) ← findAndTagErrorTypes P.start P.decls P.types P.depth P.specs P.env.facts
    let (ifaces, ifaceDiags) ← Interfaces.find ((P.moved fs os).at_ facts) (P.ifaceInfo S) P.ifaces.length S.ifaceNames P.ifaces
    let facts := Interfaces.exportFacts (P.ifaceInfo S) (S.ifaceExport ifaces) facts
    let (funcs, signatures) ← findErrorReturningFunctions ((P.moved fs os).at_ facts) (S.functions P.collected)
    let (claims, claimDiags) := findClaimedErrorCodes ((P.moved fs os).at_ facts) P.decls strict funcs
    let facts := exportErrorConstructorFacts P.start (S.ctorExport claims) facts
    let order := S.claims claims
    let depth := ((P.moved fs os).functions facts).length + 1
    let (found, st) ← Search.findAll ((P.moved fs os).plan facts) depth (order.map Prod.fst) Search.start
    let facts' := exportErrorCodeFacts P.start (S.codesExport claims) facts
    let (reports, st) ← Conv.runSteps ((P.moved fs os).at_ facts') S.conv ((P.moved fs os).plan facts') (depth + ((P.moved fs os).functions facts').length)
      (Conv.steps ((P.moved fs os).at_ facts') P.conv P.top) st
    pure (⟨facts', tags, ifaceDiags, signatures, claimDiags, st.diags, mismatches S.claimMatch order found, reports⟩ : Outcome)) = _
  simp only [hplan, hfun, hret, hcl, hst, hif, hrun]

/-! ## The order of functions -/

/-- The package with its functions declared in another order. -/
def _root_.Serum.Package.withFunctions (P : Package) (funcs : List FnId) : Package := { P with funcs := funcs }

/-- The same functions in another order: the last of several functions `_` (or `init`) is still the last; types do not have two
methods of one name. -/
structure SameFunctions (P : Package) (funcs : List FnId) : Prop where
  perm : funcs.Perm P.funcs
  last : ∀ f, Kept (P.withFunctions funcs) f ↔ Kept P f
  methods : ∀ err o, getNamedType err = some o → ∀ name, name ∈ P.types.methodNames o ∨ name = b!"Code" → ∀ m m',
    Run.MethodOfType P err name m → Run.MethodOfType P err name m' → m = m'

theorem Moves.refl (env : Env) : env.Moves env.funcs env.objects :=
  ⟨fun _ => ⟨rfl, rfl, rfl, rfl, rfl⟩, fun _ => rfl, fun _ => rfl, fun _ _ => Iff.rfl, rfl, rfl⟩

theorem perm_unique {α : Type} {l l' : List α} (h : l.Perm l') (hu : ∀ a ∈ l, ∀ b ∈ l, a = b) (hn : l.Nodup) : l = l' := by
  match l, hn with
  | [], _ => exact (List.nil_perm.1 h).symm
  | [a], _ => exact List.singleton_perm.1 h
  | a :: b :: l, hn => exact absurd (hu a (by simp) b (by simp)) (fun he => by subst he; simp at hn)

section funcs
variable {funcs : List FnId} (hf : SameFunctions P funcs) (ho : Objects P)
include hf

theorem functions_perm (name : GoString) : ((P.withFunctions funcs).start.methods name).Perm (P.start.methods name) := by
  have e : ∀ P : Package, P.start.methods name = P.funcs.filter fun f => (P.decls.recv f).isSome && (P.decls.name f == name) :=
    fun P => collectFunctions_methods P.decls P.funcs name
  rw [e, e]
  exact hf.perm.filter _

include ho

theorem functions_same : (P.withFunctions funcs).start.functions = P.start.functions := by
  have hn : (P.withFunctions funcs).funcs.Nodup := (hf.perm.nodup_iff).2 ho.funcs
  have key : ∀ P : Package, P.funcs.Nodup → ∀ n f, P.start.functions n = some f ↔ P.decls.recv f = none ∧ P.decls.name f = n ∧ Kept P f := by
    intro P hn n f
    rw [← kept_iff hn]
    have h3 : ∀ n, P.start.functions n = (P.funcs.filter fun f => (P.decls.recv f).isNone && (P.decls.name f == n)).getLast? :=
      collectFunctions_functions P.decls P.funcs
    constructor
    · intro h
      have hm := h
      rw [h3] at hm
      have hm := List.mem_of_getLast? hm
      rw [List.mem_filter, Bool.and_eq_true, beq_iff_eq, Option.isNone_iff_eq_none] at hm
      refine ⟨hm.2.1, hm.2.2, ?_⟩
      unfold Package.collected
      rw [List.mem_filter, Bool.or_eq_true, beq_iff_eq]
      exact ⟨hm.1, .inr (hm.2.2 ▸ h)⟩
    · rintro ⟨h1, rfl, h⟩
      unfold Package.collected at h
      rw [List.mem_filter, Bool.or_eq_true, beq_iff_eq, h1] at h
      exact h.2.resolve_left (by simp)
  funext n
  exact Option.ext fun f => by
    rw [key _ hn, key _ ho.funcs, hf.last]
    rfl

theorem at_functions (facts : Facts) : (P.withFunctions funcs).at_ facts =
    (P.at_ facts).moved P.env.funcs P.env.objects (P.withFunctions funcs).start.methods := by
  have h := functions_same hf ho
  have e : ∀ fn, fn = P.start.functions → ({ (P.withFunctions funcs).at_ facts with functions := fn }) =
      (P.at_ facts).moved P.env.funcs P.env.objects (P.withFunctions funcs).start.methods := by
    rintro fn rfl; rfl
  exact e _ h

theorem search_functions (facts : Facts) (T : GoType) (name : GoString) :
    ((P.withFunctions funcs).at_ facts).searchMethod T name = (P.at_ facts).searchMethod T name := by
  have e : ∀ env : Env, env.searchMethod T name = (env.searchMethodType T name).bind fun o => (env.methods name).find? fun m => env.funcObj m == o := by
    intro env
    unfold Env.searchMethod
    cases hm : env.methods name with
    | nil => cases env.searchMethodType T name <;> rfl
    | cons a l => cases env.searchMethodType T name <;> rfl
  rw [e, e]
  have et : ((P.withFunctions funcs).at_ facts).searchMethodType = (P.at_ facts).searchMethodType := rfl
  rw [et]
  refine congrArg _ (funext fun o => ?_)
  show ((P.withFunctions funcs).start.methods name).find? (fun m => P.env.funcObj m == o) = (P.start.methods name).find? fun m => P.env.funcObj m == o
  rw [← List.head?_filter, ← List.head?_filter]
  refine congrArg List.head? (perm_unique ((functions_perm hf name).filter _) ?_ ?_)
  · have hmem : ∀ a, a ∈ ((P.withFunctions funcs).start.methods name).filter (fun m => P.env.funcObj m == o) → a ∈ P.funcs ∧ P.env.funcObj a = o := by
      intro a ha
      rw [List.mem_filter, beq_iff_eq, Run.mem_methods] at ha
      exact ⟨hf.perm.mem_iff.1 ha.1.1, ha.2⟩
    intro a ha b hb
    exact ho.distinct a (hmem a ha).1 b (hmem b hb).1 ((hmem a ha).2.trans (hmem b hb).2.symm)
  · have : (P.withFunctions funcs).start.methods name = _ := collectFunctions_methods P.decls funcs name
    rw [this]
    exact (((hf.perm.nodup_iff).2 ho.funcs).filter _).filter _

theorem methodFilter_functions (err : GoType) (o : Object) (h : getNamedType err = some o) (name : GoString)
    (hname : name ∈ P.types.methodNames o ∨ name = b!"Code") :
    ((P.withFunctions funcs).start.methods name).filter (fun m => errorTypesSubset (P.types.recvType m) err) =
      (P.start.methods name).filter fun m => errorTypesSubset (P.types.recvType m) err := by
  refine perm_unique ((functions_perm hf name).filter _) ?_ ?_
  · have hmem : ∀ a, a ∈ ((P.withFunctions funcs).start.methods name).filter (fun m => errorTypesSubset (P.types.recvType m) err) →
        Run.MethodOfType P err name a := by
      intro a ha
      rw [List.mem_filter, Run.mem_methods] at ha
      refine ⟨hf.perm.mem_iff.1 ha.1.1, ha.1.2.1, ha.1.2.2, ?_⟩
      have h := ha.2
      unfold errorTypesSubset at h
      rw [Bool.or_eq_true, decide_eq_true_eq] at h
      refine h.imp id fun h => ?_
      cases err with
      | pointer e => exact congrArg GoType.pointer (of_decide_eq_true h).symm
      | _ => cases h
    exact fun a ha b hb => hf.methods err o h name hname a b (hmem a ha) (hmem b hb)
  · have : (P.withFunctions funcs).start.methods name = _ := collectFunctions_methods P.decls funcs name
    rw [this]
    exact (((hf.perm.nodup_iff).2 ho.funcs).filter _).filter _

theorem plan_functions (facts : Facts) : (P.withFunctions funcs).plan facts = P.plan facts := by
  unfold Package.plan
  have hs := search_functions hf ho facts
  rw [at_functions hf ho] at hs ⊢
  exact funext fun f => plan_moved (Moves.refl (P.at_ facts)) hs _

theorem runSteps_functions (facts : Facts) : @Conv.runSteps Diag ((P.withFunctions funcs).at_ facts) = @Conv.runSteps Diag (P.at_ facts) := by
  have hm : @Conv.methodCodes Diag ((P.withFunctions funcs).at_ facts) = @Conv.methodCodes Diag (P.at_ facts) := by
    funext plan fuel source method st
    unfold Conv.methodCodes
    rw [search_functions hf ho]
    rfl
  have hc : @Conv.checkMethods Diag ((P.withFunctions funcs).at_ facts) = @Conv.checkMethods Diag (P.at_ facts) := by
    funext o plan fuel c ms
    induction ms with
    | nil => rfl
    | cons m ms ih => funext st; unfold Conv.checkMethods; rw [hm, ih]
  have hr : @Conv.runCheck Diag ((P.withFunctions funcs).at_ facts) = @Conv.runCheck Diag (P.at_ facts) := by
    funext o plan fuel c st
    unfold Conv.runCheck
    rw [hc]
  funext o plan fuel ss
  induction ss with
  | nil => rfl
  | cons x ss ih =>
    funext st
    cases x with
    | panic => rfl
    | check c => unfold Conv.runSteps; rw [hr, ih]

end funcs

open Classical in
/-- The iteration order over the functions of `P` which is that of `S` over functions in another order. -/
noncomputable def _root_.Serum.Schedule.over (S : Schedule) (l l' : List FnId) : Schedule :=
  { S with functions := fun k => if k = l then S.functions l' else S.functions k }

theorem over_fair (hS : S.Fair) {l l' : List FnId} (h : l'.Perm l) : (S.over l l').Fair where
  functions := fun k => by
    show (if k = l then S.functions l' else S.functions k).Perm k
    split
    · rename_i e; rw [e]; exact (hS.functions l').trans h
    · exact hS.functions k
  ifaceNames := hS.ifaceNames
  tables := hS.tables
  ifaceMatch := hS.ifaceMatch
  ifaceExport := hS.ifaceExport
  ctorExport := hS.ctorExport
  claims := hS.claims
  codesExport := hS.codesExport
  claimMatch := hS.claimMatch
  conv := hS.conv

theorem collected_functions {funcs : List FnId} (hf : SameFunctions P funcs) (ho : Objects P) :
    (P.withFunctions funcs).collected.Perm P.collected := by
  have h := functions_same hf ho
  have h : (collectFunctions P.decls funcs).1 = (collectFunctions P.decls P.funcs).1 := h
  unfold Package.collected
  have e : (P.withFunctions funcs).decls = P.decls := rfl
  have e2 : (P.withFunctions funcs).funcs = funcs := rfl
  rw [e, e2, h]
  exact hf.perm.filter _

/-- Functions declared in another order: as if the map of functions had been iterated in another order. -/
theorem functions_as_schedule {funcs : List FnId} (hf : SameFunctions P funcs) (ho : Objects P) (S : Schedule) (strict : Bool) :
    runVerify (P.withFunctions funcs) S strict = runVerify P (S.over P.collected (P.withFunctions funcs).collected) strict := by
  have htag : findAndTagErrorTypes (P.withFunctions funcs).start P.decls P.types P.depth P.specs P.env.facts =
      findAndTagErrorTypes P.start P.decls P.types P.depth P.specs P.env.facts := by
    have e : (P.withFunctions funcs).start = _ := at_functions hf ho P.env.facts
    rw [e]
    exact tagging_moved (env := P.start) (Moves.refl P.start) (methodFilter_functions hf ho) _ _
  have hif : ∀ facts, Interfaces.find ((P.withFunctions funcs).at_ facts) = Interfaces.find (P.at_ facts) := by
    intro facts
    set_option smartUnfolding false in rfl
  have hret : ∀ facts l, findErrorReturningFunctions ((P.withFunctions funcs).at_ facts) l = findErrorReturningFunctions (P.at_ facts) l := by
    intro facts l; rw [at_functions hf ho]; exact returning_moved (Moves.refl (P.at_ facts)) l
  have hcl : ∀ facts l, findClaimedErrorCodes ((P.withFunctions funcs).at_ facts) P.decls strict l = findClaimedErrorCodes (P.at_ facts) P.decls strict l := by
    intro facts l; rw [at_functions hf ho]; exact claims_moved (Moves.refl (P.at_ facts)) l
  have hst : ∀ facts, Conv.steps ((P.withFunctions funcs).at_ facts) P.conv P.top = Conv.steps (P.at_ facts) P.conv P.top := by
    intro facts; rw [at_functions hf ho]; exact steps_moved (Moves.refl (P.at_ facts)) P.top
  have hx1 : ∀ c facts, exportErrorConstructorFacts (P.withFunctions funcs).start c facts = exportErrorConstructorFacts P.start c facts := fun _ _ => rfl
  have hx2 : ∀ c facts, exportErrorCodeFacts (P.withFunctions funcs).start c facts = exportErrorCodeFacts P.start c facts := fun _ _ => rfl
  have hplan := plan_functions hf ho
  have hrun := runSteps_functions hf ho
  have hfun : ∀ facts, ((P.withFunctions funcs).functions facts).length = (P.functions facts).length := by
    intro facts
    unfold Package.functions
    rw [hplan]
    simp only [List.length_append]
    rw [show (P.withFunctions funcs).funcs = funcs from rfl, hf.perm.length_eq]
    rfl
  have hord : (S.over P.collected (P.withFunctions funcs).collected).functions P.collected = S.functions (P.withFunctions funcs).collected := if_pos rfl
  unfold runVerify
  rw [hord]
  show (do
    let (facts, tags) ← findAndTagErrorTypes (P.withFunctions funcs).start P.decls P.types P.depth P.specs P.env.facts
    let (ifaces, ifaceDiags) ← Interfaces.find ((P.withFunctions funcs).at_ facts) (P.ifaceInfo S) P.ifaces.length S.ifaceNames P.ifaces
    let facts := Interfaces.exportFacts (P.ifaceInfo S) (S.ifaceExport ifaces) facts
    let (fs, signatures) ← findErrorReturningFunctions ((P.withFunctions funcs).at_ facts) (S.functions (P.withFunctions funcs).collected)
    let (claims, claimDiags) := findClaimedErrorCodes ((P.withFunctions funcs).at_ facts) P.decls strict fs
    let facts := exportErrorConstructorFacts (P.withFunctions funcs).start (S.ctorExport claims) facts
    let order := S.claims claims
    let depth := ((P.withFunctions funcs).functions facts).length + 1
    let (found, st) ← Search.findAll ((P.withFunctions funcs).plan facts) depth (order.map Prod.fst) Search.start
    let facts' := exportErrorCodeFacts (P.withFunctions funcs).start (S.codesExport claims) facts
    let (reports, st) ← Conv.runSteps ((P.withFunctions funcs).at_ facts') S.conv ((P.withFunctions funcs).plan facts')
      (depth + ((P.withFunctions funcs).functions facts').length) (Conv.steps ((P.withFunctions funcs).at_ facts') P.conv P.top) st
    pure (⟨facts', tags, ifaceDiags, signatures, claimDiags, st.diags, mismatches S.claimMatch order found, reports⟩ : Outcome)) = _
  simp only [htag, hplan, hfun, hret, hcl, hst, hif, hrun, hx1, hx2]
  rfl

/-! ## The order of other declarations -/

/-- The package with type declarations, interfaces and all declarations in another order. -/
def _root_.Serum.Package.withOrder (P : Package) (specs : List TypeSpec) (ifaces : List IfaceDecl) (top : List Conv.TopDecl) : Package :=
  { P with specs := specs, ifaces := ifaces, top := top }

/-- The same results: the same facts, and the same diagnostics in each phase, as often, possibly in another order. -/
structure SameUpToOrder (a b : Outcome) : Prop where
  facts : Run.SameFacts a.facts b.facts
  tags : a.tags.Perm b.tags
  ifaces : a.ifaces.Perm b.ifaces
  signatures : a.signatures.Perm b.signatures
  claims : a.claims.Perm b.claims
  bodies : a.bodies.Perm b.bodies
  mismatches : a.mismatches.Perm b.mismatches
  conversions : a.conversions.Perm b.conversions

theorem _root_.Serum.Props.Run.SameOutcome.upToOrder (h : Run.SameOutcome out out') : SameUpToOrder out out' :=
  ⟨h.facts, h.tags ▸ .refl _, h.ifaces, h.signatures, h.claims, h.bodies, h.mismatches, h.conversions⟩

theorem _root_.Serum.Props.Run.SameFacts.trans {a b c : Facts} (h : Run.SameFacts a b) (h' : Run.SameFacts b c) : Run.SameFacts a c :=
  ⟨h.codes.trans h'.codes, h.ctor.trans h'.ctor, h.errorType.trans h'.errorType, fun o => by
    rcases h.interface o with ⟨k1, k2⟩ | ⟨ms, ms', k1, k2, k3⟩ <;> rcases h'.interface o with ⟨l1, l2⟩ | ⟨ns, ns', l1, l2, l3⟩
    · exact .inl ⟨k1, l2⟩
    · rw [k2] at l1; cases l1
    · rw [k2] at l1; cases l1
    · rw [k2] at l1; cases l1; exact .inr ⟨ms, ns', k1, l2, k3.trans l3⟩⟩

theorem SameUpToOrder.trans {a b c : Outcome} (h : SameUpToOrder a b) (h' : SameUpToOrder b c) : SameUpToOrder a c :=
  ⟨h.facts.trans h'.facts, h.tags.trans h'.tags, h.ifaces.trans h'.ifaces, h.signatures.trans h'.signatures, h.claims.trans h'.claims,
    h.bodies.trans h'.bodies, h.mismatches.trans h'.mismatches, h.conversions.trans h'.conversions⟩

section order
variable {specs : List TypeSpec} {ifaces : List IfaceDecl} {top : List Conv.TopDecl} (hs : specs.Perm P.specs) (hi : ifaces.Perm P.ifaces)
  (ht : top.Perm P.top)

theorem objects_order (hi : ifaces.Perm P.ifaces) (h : Objects P) : Objects (P.withOrder specs ifaces top) where
  funcs := h.funcs
  distinct := h.distinct
  methods := fun d hd m hm d' hd' m' hm' => h.methods d (hi.mem_iff.1 hd) m hm d' (hi.mem_iff.1 hd') m' hm'
  apart := fun f hf d hd => h.apart f hf d (hi.mem_iff.1 hd)
  imported := h.imported
  importedMethods := fun d hd => h.importedMethods d (hi.mem_iff.1 hd)
  interfaces := fun d hd d' hd' => h.interfaces d (hi.mem_iff.1 hd) d' (hi.mem_iff.1 hd')
  importedInterfaces := fun d hd => h.importedInterfaces d (hi.mem_iff.1 hd)
  importedTables := h.importedTables

theorem program_order (hi : ifaces.Perm P.ifaces) (h : Interfaces.Program P.ifaces) : Interfaces.Program ifaces where
  names := ((hi.map _).nodup_iff).2 h.names
  methods := fun d hd => h.methods d (hi.mem_iff.1 hd)
  acyclic := by
    obtain ⟨rank, h⟩ := h.acyclic
    exact ⟨rank, fun d hd d' hd' => h d (hi.mem_iff.1 hd) d' (hi.mem_iff.1 hd')⟩

include hs hi in
theorem facts_order {s s' : Stages} (h : Prepared P S strict s out) (h' : Prepared (P.withOrder specs ifaces top) S' strict s' out')
    (hS : S.Fair) (hS' : S'.Fair) (ho : Objects P) (hp : Interfaces.Program P.ifaces) (hty : Run.Types P) :
    Run.SameFacts out.facts out'.facts where
  codes := by
    obtain ⟨a1, a2, a3⟩ := h.out_codes hS ho hp
    obtain ⟨b1, b2, b3⟩ := h'.out_codes hS' (objects_order hi ho) (program_order hi hp)
    funext o
    by_cases hf : ∃ f ∈ P.funcs, P.env.funcObj f = o
    · obtain ⟨f, hf, rfl⟩ := hf
      exact Option.ext fun C => by rw [a1 f hf]; exact (b1 f hf C).symm
    · by_cases hm : ∃ d ∈ P.ifaces, ∃ im, .method im ∈ d.elements ∧ P.methodObj im.ident.id = o
      · obtain ⟨d, hd, im, him, rfl⟩ := hm
        exact Option.ext fun C => by rw [a2 d hd im him]; exact (b2 d (hi.mem_iff.2 hd) im him C).symm
      · have k1 : ∀ f ∈ P.funcs, P.env.funcObj f ≠ o := fun f hf' he => hf ⟨f, hf', he⟩
        have k2 : ∀ d ∈ P.ifaces, ∀ im, .method im ∈ d.elements → P.methodObj im.ident.id ≠ o :=
          fun d hd im him he => hm ⟨d, hd, im, him, he⟩
        rw [a3 o k1 k2, b3 o k1 fun d hd => k2 d (hi.mem_iff.1 hd)]; rfl
  ctor := by
    obtain ⟨a1, a2⟩ := h.out_ctor hS ho
    rw [← (h.out_rest hS ho).1] at a1 a2
    obtain ⟨b1, b2⟩ := h'.out_ctor hS' (objects_order hi ho)
    rw [← (h'.out_rest hS' (objects_order hi ho)).1] at b1 b2
    funext o
    by_cases hf : ∃ f ∈ P.funcs, P.env.funcObj f = o
    · obtain ⟨f, hf, rfl⟩ := hf
      exact Option.ext fun C => by rw [a1 f hf]; exact (b1 f hf C).symm
    · have k1 : ∀ f ∈ P.funcs, P.env.funcObj f ≠ o := fun f hf' he => hf ⟨f, hf', he⟩
      rw [a2 o k1, b2 o k1]; rfl
  errorType := by
    rw [(h.out_rest hS ho).2.1, (h'.out_rest hS' (objects_order hi ho)).2.1]
    exact tag_perm hs.symm h.tag h'.tag hty.distinct hty.named
  interface := by
    obtain ⟨a1, a2⟩ := h.interfaces_exact_partial hS ho hp
    obtain ⟨b1, b2⟩ := h'.interfaces_exact_partial hS' (objects_order hi ho) (program_order hi hp)
    have hmem : ∀ d, d ∈ P.ifaces ↔ d ∈ ifaces := fun d => hi.mem_iff.symm
    intro o
    by_cases hd : ∃ d ∈ P.ifaces, d.obj = o
    · obtain ⟨d, hd, rfl⟩ := hd
      have hd' := hi.mem_iff.2 hd
      cases ho : out.facts.interface d.obj with
      | none =>
        cases ho' : out'.facts.interface d.obj with
        | none => exact .inl ⟨rfl, rfl⟩
        | some ms' =>
          obtain ⟨m, C, hh⟩ := (b1 d hd').1.1 ⟨ms', ho'⟩
          obtain ⟨ms, hms⟩ := (a1 d hd).1.2 ⟨m, C, has_mem (fun d => (hmem d).symm) hh⟩
          rw [ho] at hms; cases hms
      | some ms =>
        obtain ⟨m, C, hh⟩ := (a1 d hd).1.1 ⟨ms, ho⟩
        obtain ⟨ms', hms'⟩ := (b1 d hd').1.2 ⟨m, C, has_mem hmem hh⟩
        obtain ⟨k1, k2⟩ := (a1 d hd).2 ms ho
        obtain ⟨l1, l2⟩ := (b1 d hd').2 ms' hms'
        exact .inr ⟨ms, ms', rfl, hms', Run.perm_of_keys k1 l1 fun m C => by
          rw [k2, l2]; exact ⟨takesFrom_mem hmem, takesFrom_mem fun d => (hmem d).symm⟩⟩
    · have k : ∀ d ∈ P.ifaces, d.obj ≠ o := fun d hd' he => hd ⟨d, hd', he⟩
      rw [a2 o k, b2 o fun d hd => k d (hi.mem_iff.1 hd)]
      exact (Run.SameFacts.refl _).interface o

include hi in
theorem ifaces_order {s s' : Stages} (h : Prepared P S strict s out) (h' : Prepared (P.withOrder specs ifaces top) S' strict s' out')
    (hS : S.Fair) (hS' : S'.Fair) (ho : Objects P) (hp : Interfaces.Program P.ifaces) : out.ifaces.Perm out'.ifaces := by
  have collected : ∀ {env : Env} {info : Interfaces.Info} {fuel : Nat} {names decls is ds},
      Interfaces.find env info fuel names decls = .ok (is, ds) → ∃ st, Serum.Interfaces.collect env info decls ⟨[], [], []⟩ = .ok st := by
    intro env info fuel names decls is ds h
    simp only [Serum.Interfaces.find, bind, Except.bind] at h
    cases hc : Serum.Interfaces.collect env info decls ⟨[], [], []⟩ with
    | error e => simp [hc] at h
    | ok st => exact ⟨st, rfl⟩
  obtain ⟨st, hc⟩ := collected h.find
  obtain ⟨st', hc'⟩ := collected h'.find
  rw [List.perm_iff_count]
  intro x
  rw [((Interfaces.finished' (h.iface_fair hS ho) hp hS.ifaceNames h.find).2.2.2.2 st hc).2 x,
    ((Interfaces.finished' (h'.iface_fair hS' (objects_order hi ho)) (program_order hi hp) hS'.ifaceNames h'.find).2.2.2.2 st' hc').2 x]
  have e1 : st.diags.Perm st'.diags := by
    rw [Serum.Interfaces.collect_diags hc, Serum.Interfaces.collect_diags hc']
    have : Serum.Interfaces.reportsOf ((P.withOrder specs ifaces top).at_ s'.tagged) ((P.withOrder specs ifaces top).ifaceInfo S') =
        Serum.Interfaces.reportsOf (P.at_ s.tagged) (P.ifaceInfo S) := by
      funext d
      unfold Serum.Interfaces.reportsOf
      rw [Interfaces.check_cause (env := P.at_ s.tagged) (info := P.ifaceInfo S) (env' := (P.withOrder specs ifaces top).at_ s'.tagged)
        (info' := (P.withOrder specs ifaces top).ifaceInfo S') rfl rfl rfl d]
    rw [this]
    exact (hi.symm.flatMap_right _)
  have himp : SameImports (P.at_ s.tagged) ((P.withOrder specs ifaces top).at_ s'.tagged) :=
    sameImports rfl (h.tagged_rest.2.2.trans h'.tagged_rest.2.2.symm)
  have e2 : ∀ d, IfaceSpec.clashes (P.at_ s.tagged) P.ifaces d x = IfaceSpec.clashes ((P.withOrder specs ifaces top).at_ s'.tagged) ifaces d x := by
    intro d
    rw [clashes_congr (env := P.at_ s.tagged) (env' := (P.withOrder specs ifaces top).at_ s'.tagged) rfl rfl himp]
    exact clashes_mem fun d => hi.mem_iff.symm
  rw [e1.count_eq, funext e2]
  congr 1
  exact ((hi.symm.map _).sum_nat)

include ht in
theorem checks_order (facts : Facts) : (checks (P.withOrder specs ifaces top) facts).Perm (checks P facts) :=
  Conv.steps_perm (env := P.at_ facts) (info := P.conv) ht

include ht in
theorem lookedAt_order {facts : Facts} {f : FnId} : LookedAt (P.withOrder specs ifaces top) facts f ↔ LookedAt P facts f := by
  have ha : ∀ g, Asked ((P.withOrder specs ifaces top).at_ facts) (checks (P.withOrder specs ifaces top) facts) g ↔ Asked (P.at_ facts) (checks P facts) g := by
    intro g
    unfold Asked
    simp only [(checks_order ht facts).mem_iff]
    rfl
  unfold LookedAt
  simp only [ha]
  rfl

include hs hi ht in
/-- Types, interfaces and all declarations in another order. -/
theorem order_partial (h : runVerify P S strict = .ok out) (h' : runVerify (P.withOrder specs ifaces top) S' strict = .ok out')
    (hS : S.Fair) (hS' : S'.Fair) (ho : Objects P) (hp : Interfaces.Program P.ifaces) (hty : Run.Types P)
    (hl₁ : ∀ f c, Compared P f c → CallGraph.Settled (P.plan (during P out.facts)) f)
    (hl : ∀ f, Asked (P.at_ out.facts) (checks P out.facts) f → CallGraph.Settled (seen P out.facts) f) :
    SameUpToOrder out out' := by
  have ho' : Objects (P.withOrder specs ifaces top) := objects_order hi ho
  have hp' : Interfaces.Program (P.withOrder specs ifaces top).ifaces := program_order hi hp
  have hf : Run.SameFacts out.facts out'.facts := by
    obtain ⟨s, h⟩ := ran_iff.1 h
    obtain ⟨s', h'⟩ := ran_iff.1 h'
    exact facts_order hs hi h.toPrepared h'.toPrepared hS hS' ho hp hty
  have hd := Run.during_same (P := P) hf
  have hse := Run.seen_same (P := P) hf
  refine ⟨hf, ?_, ?_, ?_, ?_, ?_, ?_, ?_⟩
  · obtain ⟨s, h⟩ := ran_iff.1 h
    obtain ⟨s', h'⟩ := ran_iff.1 h'
    rw [tag_reports h.tag, tag_reports h'.tag]
    exact hs.symm.flatMap_right _
  · obtain ⟨s, h⟩ := ran_iff.1 h
    obtain ⟨s', h'⟩ := ran_iff.1 h'
    exact ifaces_order hi h.toPrepared h'.toPrepared hS hS' ho hp
  · obtain ⟨s, h⟩ := ran_iff.1 h
    obtain ⟨s', h'⟩ := ran_iff.1 h'
    rw [Run.signatures_list h.funcs, Run.signatures_list h'.funcs]
    exact Run.perm_flatMap ((hS.functions _).trans (hS'.functions _).symm) _
  · obtain ⟨-, fs, h1, h2, e, h3, h4⟩ := Run.declaration_reports_exact h hS ho.funcs
    obtain ⟨-, fs', h1', h2', e', h3', h4'⟩ := Run.declaration_reports_exact h' hS' ho'.funcs
    have : e' = e := funext fun f => Option.ext fun x => by rw [h3', h3]; rfl
    rw [h4, h4', this]
    exact List.Perm.filterMap _ ((List.perm_ext_iff_of_nodup h1 h1').2 fun f => by rw [h2, h2']; rfl)
  · classical
    refine Run.perm_of_each fun f => ?_
    have e : ∀ l : List (FnId × Diag), l.filter (fun x => x.1 = f) = ((l.filter fun x => x.1 = f).map Prod.snd).map fun d => (f, d) := by
      intro l
      induction l with
      | nil => rfl
      | cons a l ih =>
        by_cases ha : a.1 = f
        · simp only [ha, List.filter_cons, decide_true, if_true, List.map_cons]; rw [← ih, ← ha]
        · simp only [ha, List.filter_cons, decide_false]; exact ih
    rw [e out.bodies, e out'.bodies]
    have key : reportedIn out f = reportedIn out' f := by
      have k := Run.bodies_once h hS ho hp f
      have k' := Run.bodies_once h' hS' ho' hp' f
      by_cases hv : LookedAt P out.facts f
      · rw [k.1 hv, k'.1 ((lookedAt_order ht).2 ((Run.lookedAt_same hf).1 hv)), hse]; rfl
      · rw [k.2 hv, k'.2 fun hv' => hv ((Run.lookedAt_same hf).2 ((lookedAt_order ht).1 hv'))]
    unfold reportedIn at key
    rw [key]
  · obtain ⟨k1, k2⟩ := Run.mismatches_exact_partial h hS ho hp
    obtain ⟨k1', k2'⟩ := Run.mismatches_exact_partial h' hS' ho' hp'
    refine Run.perm_of_keys k2 k2' fun f t => ⟨fun hm => ?_, fun hm => ?_⟩
    · obtain ⟨c, _, _, hc, -⟩ := (Run.undeclared_derivable h hS ho hp).1 f t hm
      exact (k1' f (hd ▸ hl₁ f c hc) t).2 (hd ▸ (k1 f (hl₁ f c hc) t).1 hm)
    · obtain ⟨c, _, _, hc, -⟩ := (Run.undeclared_derivable h' hS' ho' hp').1 f t hm
      exact (k1 f (hl₁ f c hc) t).2 (hd ▸ (k1' f (hd ▸ hl₁ f c hc) t).1 hm)
  · have e' : out'.conversions = (checks (P.withOrder specs ifaces top) out'.facts).flatMap (Conv.expectedAt (P.at_ out'.facts) S'.conv (seen P out'.facts)) :=
      Run.conversions_list ho' hp' h' hS' fun f hf' => show CallGraph.Settled (seen P out'.facts) f from hse ▸ hl f (Run.asked_same hf.symm (by
        obtain ⟨c, hc, r⟩ := hf'
        exact ⟨c, (checks_order ht _).mem_iff.1 hc, r⟩))
    rw [Run.conversions_list ho hp h hS hl, e']
    refine .trans ?_ ((checks_order ht out'.facts).symm.flatMap_right _)
    rw [Run.checks_same hf, ← hse]
    exact (Conv.expected_perm hS.conv hS'.conv (Run.reorder out.facts out'.facts) (Run.expected_same hf) _ fun c _ => Run.mapFacts_methods hf c).symm

include hs hi ht in
/-- Whether a run panics does not depend on the order of types, interfaces and other declarations. -/
theorem success_order_partial (hS : S.Fair) (hS' : S'.Fair) (ho : Objects P) (hp : Interfaces.Program P.ifaces) (hty : Run.Types P)
    (hd : Run.Declarations P) (hv : ∀ s out, Prepared P S strict s out → Run.ValuesUncalled P out.facts) :
    (∃ r, runVerify P S strict = .ok r) ↔ ∃ r, runVerify (P.withOrder specs ifaces top) S' strict = .ok r := by
  have ho' : Objects (P.withOrder specs ifaces top) := objects_order hi ho
  have hp' : Interfaces.Program (P.withOrder specs ifaces top).ifaces := program_order hi hp
  have hd' : Run.Declarations (P.withOrder specs ifaces top) := ⟨hd.parsed, hd.arity⟩
  have hread : (∃ s out, Prepared P S strict s out) ↔ ∃ s out, Prepared (P.withOrder specs ifaces top) S' strict s out := by
    refine Iff.trans (Run.declarations_read hS ho.funcs hd) (Iff.trans ?_ (Run.declarations_read hS' ho'.funcs hd').symm)
    refine and_congr Iff.rfl ⟨fun h d hd => h d (hi.mem_iff.1 hd), fun h d hd => h d (hi.mem_iff.2 hd)⟩
  by_cases hprep : ∃ s out, Prepared P S strict s out
  case neg =>
    have hprep' : ¬ ∃ s out, Prepared (P.withOrder specs ifaces top) S' strict s out := fun h' => hprep (hread.2 h')
    constructor
    · rintro ⟨r, hr⟩; obtain ⟨s, hr⟩ := ran_iff.1 hr; exact absurd ⟨s, r, hr.toPrepared⟩ hprep
    · rintro ⟨r, hr⟩; obtain ⟨s, hr⟩ := ran_iff.1 hr; exact absurd ⟨s, r, hr.toPrepared⟩ hprep'
  obtain ⟨s', out', h'⟩ := hread.1 hprep
  obtain ⟨s, out, h⟩ := hprep
  have hv := hv s out h
  have hf := facts_order hs hi h h' hS hS' ho hp hty
  have hse := Run.seen_same (P := P) hf
  have hlk : ∀ f, LookedAt (P.withOrder specs ifaces top) out'.facts f ↔ LookedAt P out.facts f :=
    fun f => (lookedAt_order ht).trans (Run.lookedAt_same hf).symm
  have hse' : ∀ f, seen (P.withOrder specs ifaces top) out'.facts f = seen P out.facts f := fun f => by
    show seen P out'.facts f = _
    rw [hse]
  have hv' : Run.ValuesUncalled (P.withOrder specs ifaces top) out'.facts := by
    intro f hl z hz
    rw [hse'] at hz
    refine ⟨(hv f ((hlk f).1 hl) z hz).1, fun g hg => ?_⟩
    rw [hse']
    exact (hv f ((hlk f).1 hl) z hz).2 g ((hlk g).1 hg)
  have hmem : ∀ x, x ∈ checks (P.withOrder specs ifaces top) out'.facts ↔ x ∈ checks P out'.facts := fun x => (checks_order ht _).mem_iff
  have hpan : (∀ loc, .panic loc ∉ checks (P.withOrder specs ifaces top) out'.facts) ↔ ∀ loc, .panic loc ∉ checks P out.facts := by
    simp only [hmem]
    exact ⟨fun h => Run.noPanic_same hf.symm h, fun h => Run.noPanic_same hf h⟩
  have hex : Conv.MethodsExist ((P.withOrder specs ifaces top).at_ out'.facts) (checks (P.withOrder specs ifaces top) out'.facts) ↔
      Conv.MethodsExist (P.at_ out.facts) (checks P out.facts) := by
    refine Iff.trans (b := Conv.MethodsExist (P.at_ out'.facts) (checks P out'.facts)) ?_
      ⟨Run.methodsExist_same hf.symm, Run.methodsExist_same hf⟩
    unfold Conv.MethodsExist
    simp only [hmem]
    rfl
  rw [Run.run_succeeds_iff h hS ho hp hv, Run.run_succeeds_iff h' hS' ho' hp' hv', hpan, hex]
  simp only [hlk, hse']

end order

/-! ## Everything -/

/-- The package with its declarations in another order, and in other places. -/
def _root_.Serum.Package.rearranged (P : Package) (fs : List FuncDef) (os : List ObjInfo) (funcs : List FnId) (specs : List TypeSpec)
    (ifaces : List IfaceDecl) (top : List Conv.TopDecl) : Package :=
  { P with env := P.env.moved fs os P.env.methods, funcs := funcs, specs := specs, ifaces := ifaces, top := top }

/-- The same declarations, in another order and in other places.  (If there are several functions `_`, or `init`, the last one is
still the last.) -/
structure Rearranged (P : Package) (fs : List FuncDef) (os : List ObjInfo) (funcs : List FnId) (specs : List TypeSpec)
    (ifaces : List IfaceDecl) (top : List Conv.TopDecl) : Prop where
  places : P.env.Moves fs os
  last : ∀ f, Kept (P.rearranged fs os funcs specs ifaces top) f ↔ Kept P f
  funcs : funcs.Perm P.funcs
  specs : specs.Perm P.specs
  ifaces : ifaces.Perm P.ifaces
  top : top.Perm P.top

/-- No type has two methods of one name. -/
def OneMethod (P : Package) : Prop :=
  ∀ err o, getNamedType err = some o → ∀ name, name ∈ P.types.methodNames o ∨ name = b!"Code" → ∀ m m',
    Run.MethodOfType P err name m → Run.MethodOfType P err name m' → m = m'

/-- **C53.** The order and the places of declarations do not matter: a run over the package with its declarations moved around yields
the same facts, and the same diagnostics the same number of times.

Partial: neither functions with declarations nor methods whose bodies are looked at for conversions may reach a function literal that
calls back (as in `order_independent_partial`). -/
theorem rearranged_partial {funcs : List FnId} {specs : List TypeSpec} {ifaces : List IfaceDecl} {top : List Conv.TopDecl}
    (hr : Rearranged P fs os funcs specs ifaces top) (h : runVerify P S strict = .ok out)
    (h' : runVerify (P.rearranged fs os funcs specs ifaces top) S' strict = .ok out')
    (hS : S.Fair) (hS' : S'.Fair) (ho : Objects P) (hp : Interfaces.Program P.ifaces) (hty : Run.Types P) (hone : OneMethod P)
    (hl₁ : ∀ f c, Compared P f c → CallGraph.Settled (P.plan (during P out.facts)) f)
    (hl : ∀ f, Asked (P.at_ out.facts) (checks P out.facts) f → CallGraph.Settled (seen P out.facts) f) :
    SameUpToOrder out out' := by
  have hf : SameFunctions (P.withOrder specs ifaces top) funcs := ⟨hr.funcs, hr.last, hone⟩
  have ho' : Objects (P.withOrder specs ifaces top) := objects_order hr.ifaces ho
  have e : P.rearranged fs os funcs specs ifaces top = ((P.withOrder specs ifaces top).withFunctions funcs).moved fs os := rfl
  rw [e, positions (P := (P.withOrder specs ifaces top).withFunctions funcs) hr.places, functions_as_schedule hf ho'] at h'
  exact order_partial hr.specs hr.ifaces hr.top h h' hS (over_fair hS' (collected_functions hf ho')) ho hp hty hl₁ hl

/-- **C53.** Whether a run panics does not depend on the order and the places of declarations.

Partial: function literals are as the parser guarantees (`ValuesUncalled`). -/
theorem success_partial {funcs : List FnId} {specs : List TypeSpec} {ifaces : List IfaceDecl} {top : List Conv.TopDecl}
    (hr : Rearranged P fs os funcs specs ifaces top) (hS : S.Fair) (hS' : S'.Fair) (ho : Objects P) (hp : Interfaces.Program P.ifaces)
    (hty : Run.Types P) (hone : OneMethod P) (hd : Run.Declarations P)
    (hv : ∀ s out, Prepared P S strict s out → Run.ValuesUncalled P out.facts) :
    (∃ r, runVerify P S strict = .ok r) ↔ ∃ r, runVerify (P.rearranged fs os funcs specs ifaces top) S' strict = .ok r := by
  have hf : SameFunctions (P.withOrder specs ifaces top) funcs := ⟨hr.funcs, hr.last, hone⟩
  have ho' : Objects (P.withOrder specs ifaces top) := objects_order hr.ifaces ho
  have e : P.rearranged fs os funcs specs ifaces top = ((P.withOrder specs ifaces top).withFunctions funcs).moved fs os := rfl
  rw [e, positions (P := (P.withOrder specs ifaces top).withFunctions funcs) hr.places, functions_as_schedule hf ho']
  exact success_order_partial hr.specs hr.ifaces hr.top hS (over_fair hS' (collected_functions hf ho')) ho hp hty hd hv

/-- If no two functions have the same name then each of them is the last one of its name, in each order. -/
theorem last_of_distinct {P' : Package} (hperm : P'.funcs.Perm P.funcs) (hdecls : P'.decls = P.decls) (hn : P.funcs.Nodup)
    (h : ∀ f ∈ P.funcs, ∀ g ∈ P.funcs, P.decls.recv f = none → P.decls.recv g = none → P.decls.name f = P.decls.name g → f = g) (f : FnId) :
    Kept P' f ↔ Kept P f := by
  have key : ∀ Q : Package, Q.funcs.Perm P.funcs → Q.decls = P.decls → (Kept Q f ↔ f ∈ P.funcs) := by
    intro Q hq hdq
    constructor
    · rintro ⟨pre, post, he, -⟩
      exact hq.mem_iff.1 (he ▸ by simp)
    · intro hf
      obtain ⟨pre, post, he⟩ := List.append_of_mem (hq.mem_iff.2 hf)
      refine ⟨pre, post, he, ?_⟩
      cases hr : Q.decls.recv f with
      | some r => exact .inl (by simp)
      | none =>
        refine .inr fun g hg hrg hname => ?_
        have : f = g := h f hf g (hq.mem_iff.1 (he ▸ by simp [hg])) (hdq ▸ hr) (hdq ▸ hrg) (hdq ▸ hname.symm)
        have hn' := (hq.nodup_iff).2 hn
        rw [he, List.nodup_append] at hn'
        exact (List.nodup_cons.1 hn'.2.1).1 (this ▸ hg)
  rw [key P' hperm hdecls, key P (.refl _) rfl]

end Props.Rearrange
end Serum
