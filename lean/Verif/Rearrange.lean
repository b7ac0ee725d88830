import Verif.RunFacts
import Verif.ErrorTypes
import Verif.Conversions

/-! # What is done in a body depends neither on where it stands nor on the order of declarations

Of positions, only whether an object is declared inside of a function is used; of the list of methods of a name, only what can be
found in it. -/

namespace Serum

/-- The environment with declarations in other places: other positions of functions (`fs`) and objects (`os`), methods listed in
another order (`ms`). -/
def Env.moved (env : Env) (fs : List FuncDef) (os : List ObjInfo) (ms : GoString → List FnId) : Env :=
  { env with funcs := fs, objects := os, methods := ms }

/-- The same definition, perhaps in another place. -/
structure FuncDef.Same (a b : FuncDef) : Prop where
  node : a.node = b.node
  declName : a.declName = b.declName
  params : a.type.params = b.type.params
  results : a.type.results = b.type.results
  body : a.body = b.body

/-- The object is declared inside of the function: after the start of the results (of the body, if there are none), and before the
end of the body. -/
def FuncDef.Around (f : FuncDef) (o : ObjInfo) : Prop :=
  (if f.type.results.isSome then f.type.resultsPos else f.bodyPos) < o.pos ∧ o.pos < f.bodyEnd

/-- The same definitions in other places: what was declared inside of a function still is. -/
structure Env.Moves (env : Env) (fs : List FuncDef) (os : List ObjInfo) : Prop where
  func : ∀ f, (env.func f).Same ((env.moved fs os env.methods).func f)
  kind : ∀ o, ((env.moved fs os env.methods).object o).kind = (env.object o).kind
  decl : ∀ o, ((env.moved fs os env.methods).object o).decl = (env.object o).decl
  around : ∀ f o, ((env.moved fs os env.methods).func f).Around ((env.moved fs os env.methods).object o) ↔ (env.func f).Around (env.object o)
  count : os.length = env.objects.length
  size : fs.length = env.funcs.length

namespace Rearrange
variable {env : Env} {fs : List FuncDef} {os : List ObjInfo} {ms : GoString → List FnId} {f : FnId}

section
variable (hM : env.Moves fs os)
include hM

local notation "env'" => Env.moved env fs os ms

theorem sameDef (f : FnId) : (env.func f).Same ((env').func f) := hM.func f
theorem sameKind (o : ObjId) : ((env').object o).kind = (env.object o).kind := hM.kind o
theorem sameDecl (o : ObjId) : ((env').object o).decl = (env.object o).decl := hM.decl o

theorem outside_moved (i : Ident) :
    isIdentOriginOutsideFunctionScope (env') ((env').func f) i = isIdentOriginOutsideFunctionScope env (env.func f) i := by
  unfold isIdentOriginOutsideFunctionScope
  split
  · rfl
  · dsimp only
    cases i.obj with
    | none => rfl
    | some o =>
      have h : ((env').func f).Around ((env').object o) ↔ (env.func f).Around (env.object o) := hM.around f o
      unfold FuncDef.Around at h
      dsimp only
      rw [Bool.eq_iff_iff]
      simp only [Bool.or_eq_true, decide_eq_true_eq]
      omega

theorem expr_moved : Taint.processAssignedExpr (env') = Taint.processAssignedExpr env := by
  funext follow e st
  unfold Taint.processAssignedExpr
  simp only [sameKind hM]

theorem spec_moved : Taint.findValueInSpec (env') = Taint.findValueInSpec env := by
  funext follow o names values i ns st
  induction ns generalizing i st with
  | nil => rfl
  | cons n ns ih => unfold Taint.findValueInSpec; rw [expr_moved hM, ih]

theorem init_moved : Taint.processInitValue (env') = Taint.processInitValue env := by
  funext follow o st
  unfold Taint.processInitValue
  rw [sameDecl hM, spec_moved hM]

theorem assign_moved : Taint.processAssignment (env') = Taint.processAssignment env := by
  funext follow o lhs rhs i ls st
  induction ls generalizing i st with
  | nil => rfl
  | cons l ls ih => unfold Taint.processAssignment; simp only [expr_moved hM, ih]

theorem nodes_moved : Taint.processNodes (env') = Taint.processNodes env := by
  funext follow o ns st
  induction ns generalizing st with
  | nil => rfl
  | cons n ns ih => unfold Taint.processNodes; simp only [assign_moved hM, ih]

theorem spread_moved : Taint.findSpread (env') ((env').func f) = Taint.findSpread env (env.func f) := by
  funext body param n
  induction n with
  | zero => rfl
  | succ n ih =>
    funext ident st
    unfold Taint.findSpread
    simp only [outside_moved hM, init_moved hM, nodes_moved hM, ih]

theorem taint_moved : Taint.run (env') ((env').func f) = Taint.run env (env.func f) := by
  funext body param fuel visited ident
  unfold Taint.run
  rw [spread_moved hM]

/-! ## Function bodies -/

theorem position_moved : getParamPosition ((env').func f).type = getParamPosition (env.func f).type := by
  funext i
  unfold getParamPosition
  rw [(sameDef hM f).params]

theorem paramIdent_moved : getParamIdent ((env').func f).type = getParamIdent (env.func f).type := by
  funext i
  unfold getParamIdent
  rw [(sameDef hM f).params]

theorem result_moved : Analyse.resultExpression ((env').func f).type = Analyse.resultExpression (env.func f).type := by
  funext rs
  unfold Analyse.resultExpression
  rw [(sameDef hM f).results]

theorem import_moved : importErrorConstructorFact (env') f = importErrorConstructorFact env f := by
  unfold importErrorConstructorFact; rw [← (sameDef hM f).declName]; rfl
theorem param_moved : checkIfExprIsErrorCodeParam (env') f = checkIfExprIsErrorCodeParam env f := by
  funext i p; unfold checkIfExprIsErrorCodeParam; rw [import_moved hM]
theorem string_moved : extractErrorCodeFromStringExpression (env') f = extractErrorCodeFromStringExpression env f := by
  funext e; unfold extractErrorCodeFromStringExpression; rw [position_moved hM, param_moved hM]; rfl
theorem field_moved : extractFieldErrorCode (env') f = extractFieldErrorCode env f := by
  funext e fl; unfold extractFieldErrorCode; rw [string_moved hM]
theorem aff_moved : extractErrorCodesFromAffector (env') f = extractErrorCodesFromAffector env f := by
  funext e; unfold extractErrorCodesFromAffector; rw [field_moved hM]; rfl
theorem cc_moved : extractErrorCodeFromConstructorCall (env') f = extractErrorCodeFromConstructorCall env f := by
  funext r c a; unfold extractErrorCodeFromConstructorCall; rw [string_moved hM]; rfl
theorem codes_moved : codesOfExpressions (env') f = codesOfExpressions env f := by
  funext l
  induction l with
  | nil => rfl
  | cons e es ih => unfold codesOfExpressions; rw [string_moved hM, ih]
theorem ctor_moved : extractErrorCodesFromConstructor (env') f = extractErrorCodesFromConstructor env f := by
  funext b n; unfold extractErrorCodesFromConstructor; rw [import_moved hM, paramIdent_moved hM, taint_moved hM, codes_moved hM]

theorem conv_moved : extractErrorCodesFromTypeConversion (env') = extractErrorCodesFromTypeConversion env := rfl
theorem lam_moved : Analyse.lambdaAssignment (env') = Analyse.lambdaAssignment env := rfl
theorem lams_moved : Analyse.lambdaAssignments (env') = Analyse.lambdaAssignments env := by
  set_option smartUnfolding false in rfl
theorem resolve_moved : Analyse.resolveType (env') = Analyse.resolveType env := rfl

theorem all_moved : Analyse.allAssignedLambdas (env') f = Analyse.allAssignedLambdas env f := by
  funext b n c i; unfold Analyse.allAssignedLambdas; rw [taint_moved hM, lams_moved hM]

variable (hm : ∀ T name, (Env.moved env fs os ms).searchMethod T name = env.searchMethod T name)
include hm

theorem called_moved : Analyse.calledFunction (env') f = Analyse.calledFunction env f := by
  have h1 : (env').functions = env.functions := rfl
  have h2 : (env').pkgName = env.pkgName := rfl
  have h3 : (env').selection = env.selection := rfl
  funext l n c; unfold Analyse.calledFunction; simp only [aff_moved hM, hm, sameDecl hM, h1, h2, h3]
theorem fc_moved : Analyse.functionCall (env') f = Analyse.functionCall env f := by
  funext l n c e; unfold Analyse.functionCall; rw [cc_moved hM, conv_moved hM, called_moved hM hm]; rfl
theorem call_moved : Analyse.call (env') f = Analyse.call env f := by
  funext b t n
  induction n with
  | zero => rfl
  | succ n ih => funext x y z; unfold Analyse.call; rw [fc_moved hM hm, all_moved hM, ih]
theorem ce_moved : Analyse.callExpression (env') f = Analyse.callExpression env f := by
  funext b n i x a; unfold Analyse.callExpression; rw [call_moved hM hm]; rfl
theorem expression_moved : Analyse.expression (env') f = Analyse.expression env f := by
  funext b n t v e; unfold Analyse.expression; rw [ce_moved hM hm, aff_moved hM]; rfl
theorem destruct_moved : Analyse.destruct (env') f = Analyse.destruct env f := by
  funext b n e v d; unfold Analyse.destruct; rw [ce_moved hM hm]; rfl
theorem destructs_moved : Analyse.destructs (env') f = Analyse.destructs env f := by
  funext b n e v ds
  induction ds generalizing v with
  | nil => rfl
  | cons d ds ih => unfold Analyse.destructs; rw [destruct_moved hM hm]; simp only [ih]
theorem ident_moved : Analyse.identTaint (env') f = Analyse.identTaint env f := by
  funext b n k
  induction k with
  | zero => rfl
  | succ k ih => funext v i; unfold Analyse.identTaint; rw [taint_moved hM, ih, expression_moved hM hm, destructs_moved hM hm]
theorem ret_moved : Analyse.returnStmt (env') f = Analyse.returnStmt env f := by
  funext b n v rs; unfold Analyse.returnStmt; rw [result_moved hM, ident_moved hM hm, expression_moved hM hm]
theorem ann_moved : Analyse.annotatedReturn (env') f = Analyse.annotatedReturn env f := by
  funext b n v i rs; unfold Analyse.annotatedReturn; rw [ret_moved hM hm]; rfl
theorem rets_moved : Analyse.returnStmts (env') f = Analyse.returnStmts env f := by
  funext b n v ns
  induction ns generalizing v with
  | nil => rfl
  | cons m ns ih =>
    cases m <;> first
      | (unfold Analyse.returnStmts; rw [ann_moved hM hm]; simp only [ih])
      | (unfold Analyse.returnStmts; exact ih v)
omit hm in
theorem fa_moved : Analyse.fieldAssignment (env') f = Analyse.fieldAssignment env f := by
  funext o n rs t i ls
  induction ls generalizing t i with
  | nil => rfl
  | cons l ls ih => unfold Analyse.fieldAssignment; simp only [ih, string_moved hM, resolve_moved hM]
omit hm in
theorem fas_moved : Analyse.fieldAssignments (env') f = Analyse.fieldAssignments env f := by
  funext o ns
  induction ns with
  | nil => rfl
  | cons m ns ih =>
    cases m <;> first
      | (unfold Analyse.fieldAssignments; rw [fa_moved hM, ih])
      | (unfold Analyse.fieldAssignments; exact ih)
omit hm in
theorem assf_moved : Analyse.assignedFields (env') f = Analyse.assignedFields env f := by
  funext b v; unfold Analyse.assignedFields; rw [fas_moved hM]; rfl

/-- The body of a function is treated in the same way wherever declarations stand. -/
theorem plan_moved (fuel : Nat) : Analyse.plan (env') fuel f = Analyse.plan env fuel f := by
  unfold Analyse.plan Analyse.bodyPlan
  rw [(sameDef (ms := ms) hM f).body, ctor_moved hM, rets_moved hM hm, assf_moved hM]

end

/-! ## Error types -/

section
variable (hM : env.Moves fs os)
include hM
local notation "env'" => Env.moved env fs os ms

theorem returned_moved : CodeMethod.returnedExpression (env') = CodeMethod.returnedExpression env := rfl

theorem codeIdent_moved : CodeMethod.identTaint (env') f = CodeMethod.identTaint env f := by
  funext b r n k
  induction k with
  | zero => rfl
  | succ k ih => funext i st; unfold CodeMethod.identTaint; rw [taint_moved hM, ih, returned_moved hM]

theorem namedResult_moved : CodeMethod.namedResult ((env').func f).type = CodeMethod.namedResult (env.func f).type := by
  unfold CodeMethod.namedResult
  rw [(sameDef (ms := ms) hM f).results]

theorem codeRet_moved : CodeMethod.returnStmt (env') f = CodeMethod.returnStmt env f := by
  funext b r n rs st; unfold CodeMethod.returnStmt; rw [namedResult_moved hM, codeIdent_moved hM, returned_moved hM]

theorem codeRets_moved : CodeMethod.returnStmts (env') f = CodeMethod.returnStmts env f := by
  funext b r n ns
  induction ns with
  | nil => rfl
  | cons m ns ih =>
    funext st
    cases m <;> first
      | (unfold CodeMethod.returnStmts; rw [codeRet_moved hM]; simp only [ih])
      | (unfold CodeMethod.returnStmts; exact congrFun ih st)

theorem codeMethod_moved (fields) : CodeMethod.analyse (env') fields f = CodeMethod.analyse env fields f := by
  funext p r n; unfold CodeMethod.analyse; rw [(sameDef (ms := ms) hM f).body, codeRets_moved hM]

theorem methodAssignments_moved : methodAssignments (env') f = methodAssignments env f := by
  funext et o ns
  induction ns with
  | nil => rfl
  | cons m ns ih =>
    cases m <;> first
      | (unfold methodAssignments; rw [fa_moved hM, ih])
      | (unfold methodAssignments; exact ih)

theorem methodPlan_moved {td : TypeDecls} {et : ErrorType} : methodPlan (env') td et f = methodPlan env td et f := by
  unfold methodPlan; rw [(sameDef (ms := ms) hM f).body, methodAssignments_moved hM]

variable {td : TypeDecls} (hr : ∀ err o, getNamedType err = some o → ∀ name, name ∈ td.methodNames o ∨ name = b!"Code" →
  (ms name).filter (fun m => errorTypesSubset (td.recvType m) err) = (env.methods name).filter fun m => errorTypesSubset (td.recvType m) err)
include hr

theorem collect_moved {err : GoType} : collectMethodsForErrorType (env') td err = collectMethodsForErrorType env td err := by
  unfold collectMethodsForErrorType
  cases h : getNamedType err with
  | none => rfl
  | some o =>
    have key : ∀ l : List GoString, (∀ n ∈ l, n ∈ td.methodNames o) →
        (l.flatMap fun name => (ms name).filter fun m => errorTypesSubset (td.recvType m) err) =
          l.flatMap fun name => (env.methods name).filter fun m => errorTypesSubset (td.recvType m) err := by
      intro l hl
      induction l with
      | nil => rfl
      | cons n l ih =>
        rw [List.flatMap_cons, List.flatMap_cons, hr err o h n (.inl (hl n (by simp))), ih fun x hx => hl x (by simp [hx])]
    exact key _ fun _ hn => hn

theorem getCode_moved {err : GoType} {o : Object} (h : getNamedType err = some o) :
    getCodeFuncFromError (env') td err = getCodeFuncFromError env td err := by
  unfold getCodeFuncFromError
  have : (ms b!"Code").find? (fun m => errorTypesSubset (td.recvType m) err) =
      (env.methods b!"Code").find? fun m => errorTypesSubset (td.recvType m) err := by
    rw [← List.head?_filter, ← List.head?_filter, hr err o h _ (.inr rfl)]
  have e : (env').methods b!"Code" = ms b!"Code" := rfl
  rw [e, this]

theorem methods_moved {et : ErrorType} {err : GoType} :
    analyseMethodsOfErrorType (env') td et err = analyseMethodsOfErrorType env td et err := by
  unfold analyseMethodsOfErrorType
  rw [collect_moved hM hr]
  have : methodPlan (env') td et = methodPlan env td et := funext fun m => methodPlan_moved hM
  rw [this]

/-- A type is tagged in the same way wherever declarations stand. -/
theorem tag_moved {d : Decls} : tagErrorType (env') d td = tagErrorType env d td := by
  funext fuel spec err
  unfold tagErrorType
  cases h : getNamedType err with
  | none => rfl
  | some o =>
    dsimp only
    rw [getCode_moved hM hr h]
    simp only [codeMethod_moved hM, methods_moved hM hr]

end

/-! ## Conversions -/

namespace Walk
open Conv

/-- The same enclosing functions, perhaps in other places. -/
def Same (a b : Walk) : Prop := a.current.map FuncType.results = b.current.map FuncType.results ∧ a.lits = b.lits

theorem inReturn_same {rs : List Node} {t t' : FuncType} (h : t.results = t'.results) : inReturn env rs t = inReturn env rs t' := by
  unfold inReturn; rw [h]

theorem within_same {a b : Walk} (h : Same a b) : a.within_.map FuncType.results = b.within_.map FuncType.results := by
  unfold Walk.within_
  rw [h.2]
  cases b.lits with
  | nil => exact h.1
  | cons t l => rfl

theorem atNode_same {info : Info} {w w' : Option FuncType} (h : w.map FuncType.results = w'.map FuncType.results) (n : Node) :
    atNode env info w n = atNode env info w' n := by
  cases n <;> try rfl
  unfold atNode
  cases w with
  | none => cases w' with
    | none => rfl
    | some t => cases h
  | some t => cases w' with
    | none => cases h
    | some t' => exact inReturn_same (Option.some.inj h)

variable (hM : env.Moves fs os)
local notation "env'" => Env.moved env fs os ms

theorem atNode_moved {info : Info} : atNode (env') info = atNode env info := by
  set_option smartUnfolding false in rfl

include hM in
theorem walk_moved {info : Info} : ∀ (es : List Event) (a b : Walk), Same a b → walk (env') info b es = walk env info a es := by
  intro es
  induction es with
  | nil => intro a b _; rfl
  | cons e es ih =>
    intro a b h
    cases e with
    | enter f =>
      unfold walk
      rw [← h.2]
      split
      · rfl
      · exact ih _ _ ⟨congrArg some (sameDef (ms := ms) hM f).results, rfl⟩
    | leave f =>
      unfold walk
      rw [← h.2]
      split
      · rfl
      · exact ih _ _ ⟨rfl, rfl⟩
    | push n =>
      have key : ∀ a b : Walk, Same a b → atNode (env') info b.within_ n ++ walk (env') info b es = atNode env info a.within_ n ++ walk env info a es := by
        intro a b h
        rw [ih a b h, atNode_moved, atNode_same (within_same h).symm]
      unfold walk
      cases n with
      | funcLit i g t bd => exact key _ _ ⟨h.1, congrArg (t :: ·) h.2⟩
      | _ => exact key _ _ h
    | pop n =>
      unfold walk
      cases n with
      | funcLit i g t bd =>
        rw [← h.2]
        cases a.lits with
        | nil => rfl
        | cons x l => exact ih _ _ ⟨h.1, rfl⟩
      | _ => exact ih _ _ h

end Walk
end Rearrange
end Serum
