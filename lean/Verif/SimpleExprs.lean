import Verif.Simple
import Verif.Props.ErrorTypes

/-! # The expressions that may flow into return statements of simple functions (for examples) -/

namespace Serum
namespace Analyse
open Flow Taint

variable {env : Env} {body : List Node}

/-- The expressions of a statement whose value may be returned. -/
def exprsOf : Node → List Node
  | .ret _ results => results
  | .assign _ _ rhs => rhs ++ rhs.filterMap fun r => match r.unparen with | .typeAssert _ y _ => some y | _ => none
  | _ => []

/-- All expressions that may flow into a return statement. -/
def candidates (env : Env) (f : FnId) (body : List Node) : List Node :=
  (((env.func f).type.results.getD []).flatMap Field.names).map Node.ident ++
    (Node.inspectList (fun _ => true) body).flatMap exprsOf

theorem mem_candidates {f : FnId} {n e : Node} (hn : Occurs n body) (he : e ∈ exprsOf n) : e ∈ candidates env f body :=
  List.mem_append.2 (.inr (List.mem_flatMap.2 ⟨n, (mem_inspectList _ _ _).2 hn, he⟩))

theorem simple_destructured (h : simple env body = true) {x : ObjId} {d : Destruct} (hd : Destructured env body x d) :
    ∃ id lhs rhs, Occurs (.assign id lhs rhs) body ∧ lhs.length ≠ rhs.length ∧ d.source ∈ rhs := by
  rcases hd with ⟨_, _, _, hd, -⟩ | ⟨id, lhs, rhs, ho, hl, l, -, -, -, hr⟩
  · exact absurd hd (simple_decl h x)
  · exact ⟨id, lhs, rhs, ho, hl, List.mem_of_mem_head? hr⟩

theorem errExpr_candidate {f : FnId} (h : simple env body = true) {e : Node} (he : ErrExpr env f body e) :
    e ∈ candidates env f body := by
  induction he with
  | root hr =>
    obtain ⟨id, results, ⟨hw, -⟩, hr⟩ := hr
    have ho := Props.ErrorTypes.occurs_of_within hw
    cases results with
    | cons r rs =>
      simp only [← resultExpression_ok, resultExpression, Except.ok.injEq] at hr
      subst hr
      exact mem_candidates ho (List.getLast_mem _)
    | nil =>
      simp only [← resultExpression_ok, resultExpression] at hr
      cases ht : (env.func f).type.results with
      | none => rw [ht] at hr; cases hr
      | some fields =>
        rw [ht] at hr
        simp only at hr
        cases hf : fields.getLast? with
        | none => rw [hf] at hr; cases hr
        | some field =>
          rw [hf] at hr
          simp only at hr
          cases hi : field.names.getLast? with
          | none => rw [hi] at hr; cases hr
          | some i =>
            rw [hi] at hr
            cases hr
            refine List.mem_append.2 (.inl (List.mem_map.2 ⟨i, List.mem_flatMap.2 ⟨field, ?_, List.mem_of_getLast? hi⟩, rfl⟩))
            simpa [ht] using List.mem_of_getLast? hf
  | assigned _ _ hs =>
    obtain ⟨⟨id, lhs, rhs, ho, hl, k, l, t, -, -, -, hk⟩, -⟩ := simple_source h hs
    exact mem_candidates ho (List.mem_append.2 (.inl (List.mem_of_getElem? hk)))
  | asserted _ _ hd hu =>
    obtain ⟨id, lhs, rhs, ho, -, hm⟩ := simple_destructured h hd
    exact mem_candidates ho (List.mem_append.2 (.inr (List.mem_filterMap.2 ⟨_, hm, by rw [hu]⟩)))

end Analyse
end Serum
