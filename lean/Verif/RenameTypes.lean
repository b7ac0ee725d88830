import Verif.RenameBody

/-! # Renaming variables: error types -/

namespace Serum
namespace Rename
open CodeMethod

variable {ρ : Renaming} {env : Env} {f : FnId}

/-- The same diagnostic about a type, apart from names of variables. -/
def TagDiagRel (ρ : Renaming) (d d' : TagDiag) : Prop := d'.at_ = d.at_ ∧ ρ.SameTagMsg d.msg d'.msg

theorem TagDiagRel.refl (d : TagDiag) : TagDiagRel ρ d d := ⟨rfl, .refl⟩
theorem tagDiags_refl (l : List TagDiag) : Pairwise₂ (TagDiagRel ρ) l l := Pairwise₂.refl TagDiagRel.refl l

/-- The same state of the analysis of a method `Code`. -/
structure TagRel (ρ : Renaming) (s s' : TagState) : Prop where
  visited : s'.visited = s.visited
  codes : s'.codes = s.codes
  field : s'.field = s.field
  diags : Pairwise₂ (TagDiagRel ρ) s.diags s'.diags

theorem TagRel.report {s s' : TagState} (h : TagRel ρ s s') (n : NodeId) (m : TagMsg) : TagRel ρ (report s n m) (report s' n m) :=
  ⟨h.visited, h.codes, h.field, h.diags.append (tagDiags_refl _)⟩

/-- Following variables in the same way. -/
def CodeRel (ρ : Renaming) (t t' : Ident → TagState → Except Stop TagState) : Prop :=
  ∀ i j s s', Alike ρ i j → TagRel ρ s s' → ERel (TagRel ρ) (t i s) (t' j s')

section
variable (hρ : ρ.Valid)
include hρ

theorem receiver_rename (r : Option Ident) (e : Node) : receiverField (r.map ρ.ident) (e.rename ρ) = receiverField r e := by
  cases e with
  | selector id x sel =>
    cases r with
    | none => rfl
    | some r =>
      simp only [Node.rename, receiverField, Option.map_some]
      rw [rename_unparen]
      cases x.unparen with
      | ident i => simp only [Node.rename, ident_obj hρ]
      | keyValue id k v => obtain ⟨k', hk⟩ := rename_keyValue (ρ := ρ) id k v; rw [hk]
      | _ => rfl
  | keyValue id k v => obtain ⟨k', hk⟩ := rename_keyValue (ρ := ρ) id k v; rw [hk]; cases r <;> rfl
  | _ => cases r <;> rfl

theorem returned_rename (r : Option Ident) {t t' : Ident → TagState → Except Stop TagState} (ht : CodeRel ρ t t') (e : Node) {s s' : TagState}
    (h : TagRel ρ s s') :
    ERel (TagRel ρ) (returnedExpression env r t e s) (returnedExpression (env.rename ρ) (r.map ρ.ident) t' (e.rename ρ) s') := by
  have h1 : (env.rename ρ).value = env.value := rfl
  have h2 : (env.rename ρ).isPrint = env.isPrint := rfl
  unfold returnedExpression
  rw [rename_unparen, rename_id hρ, rename_id hρ, h1, h2, receiver_rename hρ, h.field]
  cases env.value e.unparen.id with
  | some v =>
    dsimp only
    cases getErrorCodeFromConstant env.isPrint v with
    | none => exact .ok (h.report _ _)
    | some c =>
      dsimp only
      split
      · exact .ok ⟨h.visited, by rw [h.codes], rfl, h.diags⟩
      · exact .ok h
  | none =>
    dsimp only
    cases receiverField r e.unparen with
    | some sel =>
      dsimp only
      cases hf : s.field with
      | none => exact .ok ⟨h.visited, h.codes, rfl, h.diags⟩
      | some g =>
        dsimp only
        split
        · exact .ok (h.report _ _)
        · exact .ok h
    | none =>
      dsimp only
      cases e.unparen with
      | ident i => exact ht _ _ _ _ (alike hρ i) h
      | keyValue id k v => obtain ⟨k', hk⟩ := rename_keyValue (ρ := ρ) id k v; rw [hk]; exact .ok (h.report _ _)
      | _ => exact .ok (h.report _ _)

omit hρ in
theorem returneds_rename {t t' : Node → TagState → Except Stop TagState}
    (ht : ∀ e s s', TagRel ρ s s' → ERel (TagRel ρ) (t e s) (t' (e.rename ρ) s')) : ∀ (es : List Node) {s s' : TagState}, TagRel ρ s s' →
    ERel (TagRel ρ) (returnedExpressions t es s) (returnedExpressions t' (Node.renameList ρ es) s')
  | [], _, _, h => .ok h
  | e :: es, _, _, h => (ht e _ _ h).bind fun _ _ h => returneds_rename ht es h

theorem codeTaint_rename (body : List Node) (r : Option Ident) (n : Nat) : ∀ k,
    CodeRel ρ (identTaint env f body r n k) (identTaint (env.rename ρ) f (Node.renameStmts ρ body) (r.map ρ.ident) n k) := by
  intro k
  induction k with
  | zero => intro i j s s' _ _; exact .error
  | succ k ih =>
    intro i j s s' hi h
    unfold identTaint
    rw [h.visited]
    refine (run_rename hρ body none n s.visited hi).bind fun a b hab => ?_
    rw [hab.expressions]
    refine returneds_rename (fun e s s' h => returned_rename hρ r ih e h) _ ⟨hab.visited, h.codes, h.field, ?_⟩
    refine (h.diags.append (hab.outOfScope.map fun x y hx => ?_)).append (hab.destructs.map fun x y hx => ?_)
    · show TagDiagRel ρ ⟨x.id, .outOfScope⟩ ⟨y.id, .outOfScope⟩
      rw [hx.id]
      exact .refl _
    refine ⟨?_, .destructured hx.target.shown⟩
    show y.source.id = x.source.id
    rw [hx.source]
    exact rename_id hρ _

theorem named_rename (type : FuncType) : ERel (Alike ρ) (namedResult type) (namedResult (type.rename ρ)) := by
  unfold namedResult
  have : (type.rename ρ).results = type.results.map (List.map (Field.rename ρ)) := rfl
  rw [this]
  match type.results with
  | none => exact .error
  | some [] => exact .error
  | some [g] =>
    obtain ⟨names, t⟩ := g
    match names with
    | [] => exact .error
    | [i] => exact .ok (alike hρ i)
    | _ :: _ :: _ => exact .error
  | some (_ :: _ :: _) => exact .error

theorem codeReturn_rename (body : List Node) (r : Option Ident) (n : Nat) (rs : List Node) {s s' : TagState} (h : TagRel ρ s s') :
    ERel (TagRel ρ) (returnStmt env f body r n rs s)
      (returnStmt (env.rename ρ) f (Node.renameStmts ρ body) (r.map ρ.ident) n (Node.renameList ρ rs) s') := by
  match rs with
  | [] =>
    simp only [returnStmt, Node.renameList]
    rw [func_rename]
    exact (named_rename hρ _).bind fun i j hi => codeTaint_rename hρ body r n n _ _ _ _ hi h
  | [e] => exact returned_rename hρ r (codeTaint_rename hρ body r n n) e h
  | _ :: _ :: _ => exact .error

theorem codeReturns_rename (body : List Node) (r : Option Ident) (n : Nat) {ns ns' : List Node} (hn : InspRel ρ ns ns') :
    ∀ {s s' : TagState}, TagRel ρ s s' → ERel (TagRel ρ) (returnStmts env f body r n ns s)
      (returnStmts (env.rename ρ) f (Node.renameStmts ρ body) (r.map ρ.ident) n ns' s') := by
  induction hn with
  | nil => intro s s' h; exact .ok h
  | @skip m ns ns' hq _ ih =>
    intro s s' h
    cases m <;> first | exact hq.elim | exact ih h
  | @cons m m' ns ns' hr _ ih =>
    intro s s' h
    cases hr with
    | ident => exact ih h
    | same =>
      cases m with
      | ret id rs => exact (codeReturn_rename hρ body r n rs h).bind fun _ _ h => ih h
      | keyValue id k v' =>
        obtain ⟨k', hk⟩ := rename_keyValue (ρ := ρ) id k v'
        rw [hk]
        exact ih h
      | _ => exact ih h

omit hρ in
theorem intoCode_rename (n : Node) : intoCode (n.rename ρ) = intoCode n := by
  cases n with
  | keyValue id k v => obtain ⟨k', hk⟩ := rename_keyValue (ρ := ρ) id k v; rw [hk]; rfl
  | _ => rfl

omit hρ in
theorem body_rename : ((env.rename ρ).func f).body.getD [] = Node.renameStmts ρ ((env.func f).body.getD []) := by
  rw [func_rename]
  simp only [FuncDef.rename]
  cases (env.func f).body <;> rfl

theorem analyse_rename (fields : Option (List (List GoString))) (pos : NodeId) (r : Option Ident) (n : Nat) :
    ERel (fun a b => b.1 = a.1 ∧ Pairwise₂ (TagDiagRel ρ) a.2 b.2) (analyse env fields f pos r n)
      (analyse (env.rename ρ) fields f pos (r.map ρ.ident) n) := by
  unfold analyse
  rw [body_rename]
  refine (codeReturns_rename hρ _ r n (inspectList_rel hρ intoCode_rename _) ⟨rfl, rfl, rfl, .nil⟩).bind fun a b h => .ok ?_
  unfold outcome
  simp only [h.codes, h.field]
  refine ⟨trivial, h.diags.append (tagDiags_refl _)⟩

/-! ## Methods of an error type -/

omit hρ in
theorem planResult_rel {p p' : BodyPlan} (h : PlanRel ρ p p') : ERel (FoundRel ρ) (planResult p) (planResult p') := by
  induction h with
  | codes => exact .ok (.refl _)
  | report h => exact .ok ⟨rfl, .cons h .nil⟩
  | panic => exact .error
  | call => exact .error
  | visit => exact .error
  | union _ _ ih ih' =>
    refine ih.bind fun a b hab => ih'.bind fun c d hcd => .ok ⟨?_, hab.2.append hcd.2⟩
    show CodeSet.union b.1 d.1 = CodeSet.union a.1 c.1
    rw [hab.1, hcd.1]
  | minus _ ih =>
    refine ih.bind fun a b hab => .ok ⟨?_, hab.2⟩
    show CodeSet.diff b.1 _ = CodeSet.diff a.1 _
    rw [hab.1]

theorem methodAssignments_rename (et : ErrorType) (o : ObjId) {ns ns' : List Node} (hn : InspRel ρ ns ns') :
    PlanRel ρ (methodAssignments env f et o ns) (methodAssignments (env.rename ρ) f et o ns') := by
  induction hn with
  | nil => exact .codes
  | @skip m ns ns' hq _ ih => cases m <;> first | exact hq.elim | exact ih
  | @cons m m' ns ns' hr _ ih =>
    cases hr with
    | ident => exact ih
    | same =>
      cases m with
      | assign id l r =>
        refine .union ?_ ih
        rw [rename_length]
        exact field_rename hρ o _ r l (some et) 0
      | keyValue id k v' =>
        obtain ⟨k', hk⟩ := rename_keyValue (ρ := ρ) id k v'
        rw [hk]
        exact ih
      | _ => exact ih

/-- The receivers with their new names. -/
def types (ρ : Renaming) (td : TypeDecls) : TypeDecls := { td with recvNames := fun m => (td.recvNames m).map ρ.ident }

theorem methodPlan_rename (td : TypeDecls) (et : ErrorType) (m : FnId) :
    PlanRel ρ (methodPlan env td et m) (methodPlan (env.rename ρ) (types ρ td) et m) := by
  have : (types ρ td).recvNames m = (td.recvNames m).map ρ.ident := rfl
  unfold methodPlan
  rw [this]
  match td.recvNames m with
  | [] => exact .codes
  | [r] =>
    simp only [List.map, ident_obj hρ]
    cases r.obj with
    | none => exact .codes
    | some o =>
      dsimp only
      rw [body_rename]
      exact methodAssignments_rename hρ et o (inspectList_rel hρ Rename.intoFields_rename _)
  | _ :: _ :: _ => exact .codes

theorem methods_rename (td : TypeDecls) (et : ErrorType) (err : GoType) :
    ERel (FoundRel ρ) (analyseMethodsOfErrorType env td et err) (analyseMethodsOfErrorType (env.rename ρ) (types ρ td) et err) := by
  have : collectMethodsForErrorType (env.rename ρ) (types ρ td) err = collectMethodsForErrorType env td err := rfl
  unfold analyseMethodsOfErrorType
  rw [this]
  refine .ite (fun _ => .ok (.refl _)) fun _ => ?_
  refine (planResult_rel (unions_rel ?_)).bind fun a b hab => .ok ⟨?_, hab.2⟩
  · exact (Pairwise₂.refl (R := fun a b => b = a) (fun _ => rfl) _).map fun a b hab => by
      subst hab; exact methodPlan_rename hρ td et _
  · simp only [hab.1]

/-- The same result, and the same diagnostics. -/
def TaggedRel {α : Type} (ρ : Renaming) (x x' : α × List TagDiag) : Prop := x'.1 = x.1 ∧ Pairwise₂ (TagDiagRel ρ) x.2 x'.2

theorem tag_rename (d : Decls) (td : TypeDecls) (n : Nat) (spec : TypeSpec) (err : GoType) :
    ERel (TaggedRel ρ) (tagErrorType env d td n spec err) (tagErrorType (env.rename ρ) d (types ρ td) n spec err) := by
  have h1 : (types ρ td).isInterface = td.isInterface := rfl
  have h2 : getCodeFuncFromError (env.rename ρ) (types ρ td) err = (getCodeFuncFromError env td err).map fun x => (x.1, x.2.map ρ.ident) := by
    unfold getCodeFuncFromError
    have h1 : (env.rename ρ).methods = env.methods := rfl
    have h2 : (types ρ td).recvType = td.recvType := rfl
    rw [h1, h2]
    cases (env.methods b!"Code").find? fun m => errorTypesSubset (td.recvType m) err with
    | none => rfl
    | some m =>
      have : (types ρ td).recvNames m = (td.recvNames m).map ρ.ident := rfl
      dsimp only
      rw [this]
      match td.recvNames m with
      | [] => rfl
      | [r] => rfl
      | _ :: _ :: _ => rfl
  unfold tagErrorType
  rw [h1, h2]
  cases getNamedType err with
  | none => exact .ok ⟨rfl, tagDiags_refl _⟩
  | some o =>
    dsimp only
    refine .ite (fun _ => .ok ⟨rfl, tagDiags_refl _⟩) fun _ => ?_
    cases getCodeFuncFromError env td err with
    | none => exact .ok ⟨rfl, tagDiags_refl _⟩
    | some x =>
      obtain ⟨m, r⟩ := x
      refine (analyse_rename hρ spec.fields (d.pos m) r n).bind fun a b hab => ?_
      obtain ⟨t, ds⟩ := a
      obtain ⟨t', ds'⟩ := b
      obtain ⟨rfl, hd⟩ := hab
      dsimp only
      cases t' with
      | none => exact .ok ⟨rfl, hd.append (tagDiags_refl _)⟩
      | some et =>
        refine (methods_rename hρ td et err).bind fun a b hab => ?_
        obtain ⟨t, es⟩ := a
        obtain ⟨t', es'⟩ := b
        obtain ⟨rfl, he⟩ := hab
        exact .ok ⟨rfl, hd.append (he.map fun x y hx => ⟨hx.1, .assignment hx.2⟩)⟩

/-- Error types are tagged in the same way. -/
theorem tagging_rename (d : Decls) (td : TypeDecls) (n : Nat) : ∀ (specs : List TypeSpec) (facts : Facts),
    ERel (TaggedRel ρ) (findAndTagErrorTypes env d td n specs facts) (findAndTagErrorTypes (env.rename ρ) d (types ρ td) n specs facts) := by
  intro specs
  induction specs with
  | nil => intro facts; exact .ok ⟨rfl, .nil⟩
  | cons spec specs ih =>
    intro facts
    have : typeToTag (env.rename ρ) = typeToTag env := rfl
    unfold findAndTagErrorTypes
    rw [this]
    cases typeToTag env spec.typ with
    | none => exact ih facts
    | some err =>
      refine (tag_rename hρ d td n spec err).bind fun a b hab => ?_
      obtain ⟨t, ds⟩ := a
      obtain ⟨t', ds'⟩ := b
      obtain ⟨rfl, hd⟩ := hab
      refine (ih _).bind fun a b hab => .ok ⟨hab.1, hd.append hab.2⟩

end
end Rename
end Serum
