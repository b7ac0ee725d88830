import Verif.RunFacts

/-! # What is done in a body does not depend on the facts about interfaces

Interface facts are read only when interfaces are embedded or converted to. -/

namespace Serum

/-- The environment with other facts about interfaces. -/
def Env.withIfaces (env : Env) (i : Object → Option (List (GoString × CodeSet))) : Env :=
  { env with facts := { env.facts with interface := i } }

namespace Analyse
variable (env : Env) (i : Object → Option (List (GoString × CodeSet)))
set_option smartUnfolding false

private theorem w_ctor : extractErrorCodesFromConstructor (env.withIfaces i) = extractErrorCodesFromConstructor env := rfl
private theorem w_taint : Taint.run (env.withIfaces i) = Taint.run env := rfl
private theorem w_aff : extractErrorCodesFromAffector (env.withIfaces i) = extractErrorCodesFromAffector env := rfl
private theorem w_conv : extractErrorCodesFromTypeConversion (env.withIfaces i) = extractErrorCodesFromTypeConversion env := rfl
private theorem w_cc : extractErrorCodeFromConstructorCall (env.withIfaces i) = extractErrorCodeFromConstructorCall env := rfl
private theorem w_fields : fieldAssignments (env.withIfaces i) = fieldAssignments env := rfl
private theorem w_lam : lambdaAssignment (env.withIfaces i) = lambdaAssignment env := rfl
private theorem w_lams : lambdaAssignments (env.withIfaces i) = lambdaAssignments env := rfl
private theorem w_called : calledFunction (env.withIfaces i) = calledFunction env := rfl
private theorem w_all : allAssignedLambdas (env.withIfaces i) = allAssignedLambdas env := rfl
private theorem w_fc : functionCall (env.withIfaces i) = functionCall env := rfl
private theorem w_call : call (env.withIfaces i) = call env := rfl
private theorem w_ce : callExpression (env.withIfaces i) = callExpression env := rfl
private theorem w_expr : expression (env.withIfaces i) = expression env := rfl
private theorem w_destructs : destructs (env.withIfaces i) = destructs env := rfl
private theorem w_ident : identTaint (env.withIfaces i) = identTaint env := rfl
private theorem w_ret : returnStmt (env.withIfaces i) = returnStmt env := rfl
private theorem w_ann : annotatedReturn (env.withIfaces i) = annotatedReturn env := rfl
private theorem w_rets : returnStmts (env.withIfaces i) = returnStmts env := rfl
private theorem w_assf : assignedFields (env.withIfaces i) = assignedFields env := rfl
private theorem w_body (fuel f) : bodyPlan (env.withIfaces i) fuel f = bodyPlan env fuel f := by
  unfold bodyPlan
  rw [w_ctor, w_rets, w_assf]; rfl

theorem plan_withIfaces : plan (env.withIfaces i) = plan env := by
  funext fuel f; unfold plan; rw [w_body]

end Analyse

/-- Bodies are treated in the same way with facts that differ only about interfaces. -/
theorem Package.plan_eq {P : Package} {a b : Facts} (h1 : a.codes = b.codes) (h2 : a.ctor = b.ctor) (h3 : a.errorType = b.errorType) :
    P.plan a = P.plan b := by
  have : P.at_ a = (P.at_ b).withIfaces a.interface := by
    unfold Package.at_ Env.withIfaces
    cases a; cases b; simp only at h1 h2 h3; subst h1 h2 h3; rfl
  unfold Package.plan
  rw [this, Analyse.plan_withIfaces]

end Serum
