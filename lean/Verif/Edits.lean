import Verif.RunFacts
import Verif.ErrorTypes

/-! # What is done in a body depends on no other body

Of the table of functions, only the entry of the function itself is read. -/

namespace Serum

/-- The environment with other definitions of functions. -/
def Env.withFuncs (env : Env) (fs : List FuncDef) : Env := { env with funcs := fs }

namespace Analyse
variable {env : Env} {fs : List FuncDef} {f : FnId}

theorem e_taint : Taint.run (env.withFuncs fs) = Taint.run env := by
  set_option smartUnfolding false in rfl
private theorem e_conv : extractErrorCodesFromTypeConversion (env.withFuncs fs) = extractErrorCodesFromTypeConversion env := rfl
private theorem e_lam : lambdaAssignment (env.withFuncs fs) = lambdaAssignment env := rfl
private theorem e_lams : lambdaAssignments (env.withFuncs fs) = lambdaAssignments env := by
  set_option smartUnfolding false in rfl
private theorem e_method : (env.withFuncs fs).searchMethod = env.searchMethod := by
  set_option smartUnfolding false in rfl
private theorem e_resolve : resolveType (env.withFuncs fs) = resolveType env := rfl
private theorem e_legible : checkErrorTypeHasLegibleCode (env.withFuncs fs) = checkErrorTypeHasLegibleCode env := rfl
private theorem e_type : (env.withFuncs fs).getErrorTypeForError = env.getErrorTypeForError := rfl

variable (hf : (env.withFuncs fs).func f = env.func f)
include hf

private theorem e_import : importErrorConstructorFact (env.withFuncs fs) f = importErrorConstructorFact env f := by
  unfold importErrorConstructorFact; rw [hf]; rfl
private theorem e_param : checkIfExprIsErrorCodeParam (env.withFuncs fs) f = checkIfExprIsErrorCodeParam env f := by
  funext i p; unfold checkIfExprIsErrorCodeParam; rw [e_import hf]
private theorem e_string : extractErrorCodeFromStringExpression (env.withFuncs fs) f = extractErrorCodeFromStringExpression env f := by
  funext e; unfold extractErrorCodeFromStringExpression; rw [hf, e_param hf]; rfl
private theorem e_field : extractFieldErrorCode (env.withFuncs fs) f = extractFieldErrorCode env f := by
  funext e fl; unfold extractFieldErrorCode; rw [e_string hf]
private theorem e_aff : extractErrorCodesFromAffector (env.withFuncs fs) f = extractErrorCodesFromAffector env f := by
  funext e; unfold extractErrorCodesFromAffector; rw [e_field hf]; rfl
private theorem e_cc : extractErrorCodeFromConstructorCall (env.withFuncs fs) f = extractErrorCodeFromConstructorCall env f := by
  funext r c a; unfold extractErrorCodeFromConstructorCall; rw [e_string hf]; rfl
private theorem e_codes : codesOfExpressions (env.withFuncs fs) f = codesOfExpressions env f := by
  funext l
  induction l with
  | nil => rfl
  | cons e es ih => unfold codesOfExpressions; rw [e_string hf, ih]
private theorem e_ctor : extractErrorCodesFromConstructor (env.withFuncs fs) f = extractErrorCodesFromConstructor env f := by
  funext b n; unfold extractErrorCodesFromConstructor; rw [e_import hf, hf, e_taint, e_codes hf]
private theorem e_all : allAssignedLambdas (env.withFuncs fs) f = allAssignedLambdas env f := by
  funext b n c i; unfold allAssignedLambdas; rw [hf, e_taint, e_lams]
private theorem e_called : calledFunction (env.withFuncs fs) f = calledFunction env f := by
  funext l n c; unfold calledFunction; rw [e_aff hf, e_method]; rfl
private theorem e_fc : functionCall (env.withFuncs fs) f = functionCall env f := by
  funext l n c e; unfold functionCall; rw [e_cc hf, e_conv, e_called hf]; rfl
private theorem e_call : call (env.withFuncs fs) f = call env f := by
  funext b t n
  induction n with
  | zero => rfl
  | succ n ih => funext x y z; unfold call; rw [e_fc hf, e_all hf, ih]
private theorem e_ce : callExpression (env.withFuncs fs) f = callExpression env f := by
  funext b n i x a; unfold callExpression; rw [e_call hf]; rfl
private theorem e_expr : expression (env.withFuncs fs) f = expression env f := by
  funext b n t v e; unfold expression; rw [e_ce hf, e_aff hf]; rfl
private theorem e_destruct : destruct (env.withFuncs fs) f = destruct env f := by
  funext b n e v d; unfold destruct; rw [e_ce hf]; rfl
private theorem e_destructs : destructs (env.withFuncs fs) f = destructs env f := by
  funext b n e v ds
  induction ds generalizing v with
  | nil => rfl
  | cons d ds ih => unfold destructs; rw [e_destruct hf]; simp only [ih]
private theorem e_ident : identTaint (env.withFuncs fs) f = identTaint env f := by
  funext b n k
  induction k with
  | zero => rfl
  | succ k ih => funext v i; unfold identTaint; rw [hf, e_taint, ih, e_expr hf, e_destructs hf]
private theorem e_ret : returnStmt (env.withFuncs fs) f = returnStmt env f := by
  funext b n v rs; unfold returnStmt; rw [hf, e_ident hf, e_expr hf]
private theorem e_ann : annotatedReturn (env.withFuncs fs) f = annotatedReturn env f := by
  funext b n v i rs; unfold annotatedReturn; rw [e_ret hf]; rfl
private theorem e_rets : returnStmts (env.withFuncs fs) f = returnStmts env f := by
  funext b n v ns
  induction ns generalizing v with
  | nil => rfl
  | cons m ns ih =>
    cases m <;> first
      | (unfold returnStmts; rw [e_ann hf]; simp only [ih])
      | (unfold returnStmts; exact ih v)
theorem e_fa : fieldAssignment (env.withFuncs fs) f = fieldAssignment env f := by
  funext o n rs t i ls
  induction ls generalizing t i with
  | nil => rfl
  | cons l ls ih => unfold fieldAssignment; simp only [ih, e_string hf, e_resolve]
private theorem e_fas : fieldAssignments (env.withFuncs fs) f = fieldAssignments env f := by
  funext o ns
  induction ns with
  | nil => rfl
  | cons m ns ih =>
    cases m <;> first
      | (unfold fieldAssignments; rw [e_fa hf, ih])
      | (unfold fieldAssignments; exact ih)
private theorem e_assf : assignedFields (env.withFuncs fs) f = assignedFields env f := by
  funext b v; unfold assignedFields; rw [e_fas hf]; rfl

/-- The body of `f` is treated in the same way whatever the other bodies are. -/
theorem plan_withFuncs (fuel : Nat) : plan (env.withFuncs fs) fuel f = plan env fuel f := by
  unfold plan bodyPlan
  rw [hf, e_ctor hf, e_rets hf, e_assf hf]

end Analyse

section
variable {env : Env} {fs : List FuncDef} {f : FnId}

private theorem t_expr : CodeMethod.returnedExpression (env.withFuncs fs) = CodeMethod.returnedExpression env := rfl

private theorem t_ident (hf : (env.withFuncs fs).func f = env.func f) : CodeMethod.identTaint (env.withFuncs fs) f = CodeMethod.identTaint env f := by
  funext b r n k
  induction k with
  | zero => rfl
  | succ k ih => funext i st; unfold CodeMethod.identTaint; rw [hf, Analyse.e_taint, ih, t_expr]

private theorem t_ret (hf : (env.withFuncs fs).func f = env.func f) : CodeMethod.returnStmt (env.withFuncs fs) f = CodeMethod.returnStmt env f := by
  funext b r n rs st; unfold CodeMethod.returnStmt; rw [hf, t_ident hf, t_expr]

private theorem t_rets (hf : (env.withFuncs fs).func f = env.func f) : CodeMethod.returnStmts (env.withFuncs fs) f = CodeMethod.returnStmts env f := by
  funext b r n ns
  induction ns with
  | nil => rfl
  | cons m ns ih =>
    funext st
    cases m <;> first
      | (unfold CodeMethod.returnStmts; rw [t_ret hf]; simp only [ih])
      | (unfold CodeMethod.returnStmts; exact congrFun ih st)

private theorem t_analyse (hf : (env.withFuncs fs).func f = env.func f) (fields) :
    CodeMethod.analyse (env.withFuncs fs) fields f = CodeMethod.analyse env fields f := by
  funext p r n; unfold CodeMethod.analyse; rw [hf, t_rets hf]

private theorem t_assign (hf : (env.withFuncs fs).func f = env.func f) : methodAssignments (env.withFuncs fs) f = methodAssignments env f := by
  funext et o ns
  induction ns with
  | nil => rfl
  | cons m ns ih =>
    cases m <;> first
      | (unfold methodAssignments; rw [Analyse.e_fa hf, ih])
      | (unfold methodAssignments; exact ih)

private theorem t_plan {td : TypeDecls} {et : ErrorType} (hf : (env.withFuncs fs).func f = env.func f) :
    methodPlan (env.withFuncs fs) td et f = methodPlan env td et f := by
  unfold methodPlan; rw [hf, t_assign hf]

variable (hm : ∀ name, ∀ m ∈ env.methods name, (env.withFuncs fs).func m = env.func m)
include hm

private theorem t_methods {td : TypeDecls} {et : ErrorType} {err : GoType} :
    analyseMethodsOfErrorType (env.withFuncs fs) td et err = analyseMethodsOfErrorType env td et err := by
  unfold analyseMethodsOfErrorType
  have : (collectMethodsForErrorType (env.withFuncs fs) td err).map (methodPlan (env.withFuncs fs) td et) =
      (collectMethodsForErrorType env td err).map (methodPlan env td et) := by
    refine List.map_congr_left fun m hmem => t_plan (hf := ?_)
    have hmem : m ∈ collectMethodsForErrorType env td err := hmem
    unfold collectMethodsForErrorType at hmem
    split at hmem
    · cases hmem
    · obtain ⟨name, -, hmem⟩ := List.mem_flatMap.1 hmem
      exact hm name m (List.mem_filter.1 hmem).1
  rw [this]

private theorem t_tag {d : Decls} {td : TypeDecls} {fuel : Nat} {spec : TypeSpec} {err : GoType} :
    tagErrorType (env.withFuncs fs) d td fuel spec err = tagErrorType env d td fuel spec err := by
  unfold tagErrorType
  have e : getCodeFuncFromError (env.withFuncs fs) td err = getCodeFuncFromError env td err := rfl
  rw [e]
  cases getNamedType err with
  | none => rfl
  | some o =>
    dsimp only
    split
    · rfl
    · cases hc : getCodeFuncFromError env td err with
      | none => rfl
      | some mr =>
        obtain ⟨m, r⟩ := mr
        have hmem : m ∈ env.methods b!"Code" := by
          unfold getCodeFuncFromError at hc
          split at hc
          · cases hc
          · rename_i m' hfind
            have : m' = m := by split at hc <;> cases hc <;> rfl
            subst this
            exact List.mem_of_find?_eq_some hfind
        dsimp only
        rw [t_analyse (hm _ m hmem)]
        simp only [t_methods hm]

/-- Error types are found in the same way whatever the bodies of functions which are not methods. -/
theorem tagging_withFuncs {d : Decls} {td : TypeDecls} {fuel : Nat} (specs : List TypeSpec) (facts : Facts) :
    findAndTagErrorTypes (env.withFuncs fs) d td fuel specs facts = findAndTagErrorTypes env d td fuel specs facts := by
  induction specs generalizing facts with
  | nil => rfl
  | cons spec specs ih =>
    unfold findAndTagErrorTypes
    have e : typeToTag (env.withFuncs fs) = typeToTag env := rfl
    rw [e]
    simp only [t_tag hm, ih]

end
end Serum
