import Verif.Run
import Verif.Spec.ConversionSpec

/-!
# Specification: renaming variables and leaving out statements

`Package.rename ρ` is the package with other names for variables (local variables, named results, receivers, parameters of functions and
of function literals, …), and without some statements.
-/

namespace Serum

/-- What is renamed, and what is left out. -/
structure Renaming where
  /-- the new name of a variable, if it is renamed -/
  new : ObjId → Option GoString
  /-- A key of a composite literal, afterwards.  (The parser also resolves those keys which are names of fields: they refer to a
  variable of this name, if there is one.  So they may refer to something else afterwards.) -/
  key : Ident → Ident
  /-- the statements that are left out -/
  drop : Node → Bool

/-- Not an assignment, a return statement or a function literal. -/
def Node.Quiet : Node → Prop
  | .assign .. | .ret .. | .funcLit .. => False
  | _ => True

/-- An identifier, afterwards: it has another name if it refers to a renamed variable. -/
def Renaming.ident (ρ : Renaming) (i : Ident) : Ident :=
  if i.name = b!"nil" then i
  else match i.obj.bind ρ.new with
    | some n => { i with name := n }
    | none => i

/-- No variable gets the name `nil`, the keys of composite literals keep their names, and what is left out contains no assignments,
return statements and function literals. -/
structure Renaming.Valid (ρ : Renaming) : Prop where
  named : ∀ x n, ρ.new x = some n → n ≠ b!"nil"
  keyId : ∀ i, (ρ.key i).id = i.id
  keyName : ∀ i, (ρ.key i).name = i.name
  quiet : ∀ n, ρ.drop n = true → ∀ m, Within (fun _ => true) m n → m.Quiet

/-- Parameters or results. -/
def Field.rename (ρ : Renaming) (g : Field) : Field := { g with names := g.names.map ρ.ident }

/-- A signature. -/
def FuncType.rename (ρ : Renaming) (t : FuncType) : FuncType :=
  { t with params := t.params.map (Field.rename ρ), results := t.results.map (List.map (Field.rename ρ)) }

namespace Node
variable (ρ : Renaming)

mutual
/-- Renaming in a syntax tree.  Selected names (`x.sel`) are not names of variables. -/
def rename : Node → Node
  | .ident i => .ident (ρ.ident i)
  | .basicLit id => .basicLit id
  | .compositeLit id elts => .compositeLit id (renameList elts)
  | .keyValue id (.ident k) v => .keyValue id (.ident (ρ.key k)) (rename v)
  | .keyValue id k v => .keyValue id (rename k) (rename v)
  | .funcLit id g t body => .funcLit id g (t.rename ρ) (renameStmts body)
  | .paren id x => .paren id (rename x)
  | .selector id x sel => .selector id (rename x) sel
  | .index id x y => .index id (rename x) (rename y)
  | .typeAssert id x t => .typeAssert id (rename x) t
  | .call id f as => .call id (rename f) (renameList as)
  | .unary id a x => .unary id a (rename x)
  | .assign id l r => .assign id (renameList l) (renameList r)
  | .ret id rs => .ret id (renameList rs)
  | .valueSpec id ns t vs => .valueSpec id (ns.map ρ.ident) t (renameList vs)
  | .typeSwitch id s a cs => .typeSwitch id (renameList s) (rename a) (renameList cs)
  | .caseClause id ts b => .caseClause id (renameList ts) (renameStmts b)
  | .range id k v x b => .range id (renameOption k) (renameOption v) (rename x) (renameStmts b)
  | .send id c v => .send id (rename c) (rename v)
  | .other id cs => .other id (renameStmts cs)

/-- Renaming in several nodes. -/
def renameList : List Node → List Node
  | [] => []
  | n :: ns => rename n :: renameList ns

/-- Renaming in the statements of a block, and leaving out some of them.  (Blocks and statements with blocks are nodes `other`, as
are expressions of no interest here.) -/
def renameStmts : List Node → List Node
  | [] => []
  | n :: ns => if ρ.drop n then renameStmts ns else rename n :: renameStmts ns

/-- Renaming in an optional node. -/
def renameOption : Option Node → Option Node
  | none => none
  | some n => some (rename n)
end
end Node

/-- A function. -/
def FuncDef.rename (ρ : Renaming) (f : FuncDef) : FuncDef :=
  { f with type := f.type.rename ρ, body := f.body.map (Node.renameStmts ρ) }

/-- A declared object. -/
def ObjInfo.rename (ρ : Renaming) (o : ObjInfo) : ObjInfo :=
  { o with decl := match o.decl with
    | .valueSpec names values => .valueSpec (names.map ρ.ident) (Node.renameList ρ values)
    | d => d }

/-- The syntax trees of a package. -/
def Env.rename (ρ : Renaming) (env : Env) : Env :=
  { env with funcs := env.funcs.map (FuncDef.rename ρ), objects := env.objects.map (ObjInfo.rename ρ) }

/-- A declaration. -/
def Conv.TopDecl.rename (ρ : Renaming) : Conv.TopDecl → Conv.TopDecl
  | .func f => .func f
  | .node n => .node (n.rename ρ)

/-- The package with variables renamed and statements left out; everything else (types, constants, comments, positions, …) is the same. -/
def Package.rename (ρ : Renaming) (P : Package) : Package :=
  { P with
    env := P.env.rename ρ
    types := { P.types with recvNames := fun m => (P.types.recvNames m).map ρ.ident }
    top := P.top.map (Conv.TopDecl.rename ρ) }

/-- If the comment of a function names its error code parameter, this parameter keeps its name and no other parameter gets it. -/
def Renaming.KeepsCodeParams (ρ : Renaming) (P : Package) : Prop :=
  ∀ f r, findErrorDocs (P.decls.doc f) = .ok r → r.param ≠ [] → ∀ g ∈ (P.env.func f).type.params, ∀ i ∈ g.names,
    i.name = r.param ∨ (ρ.ident i).name = r.param → ρ.ident i = i

/-! ## Statements of no interest -/

/-- The object of a type that may be an interface with error methods: a dependency says so, or it is an interface declared in the package. -/
def Package.MayBeErrorInterface (P : Package) (o : Object) : Prop := P.env.facts.interface o ≠ none ∨ ∃ d ∈ P.ifaces, d.obj = o

/-- Facts that can be known: no other interfaces have error methods. -/
def Package.Possible (P : Package) (facts : Facts) : Prop := ∀ o, facts.interface o ≠ none → P.MayBeErrorInterface o

/-- In what is left out, no value is converted to a type that may be an interface with error methods (and there are no forms that make
the analyzer crash or treat conversions wrongly, see C34). -/
def Renaming.ConvertsNothing (ρ : Renaming) (P : Package) (calls : ConvSpec.CallKind) : Prop :=
  ∀ facts, P.Possible facts → ∀ n, ρ.drop n = true → ∀ m, Within (fun _ => true) m n → ∀ w,
    ConvSpec.WellTyped (P.at_ facts) P.conv calls w m ∧ ConvSpec.Supported (P.at_ facts) P.conv calls w m ∧
    ∀ T S e o, ConvSpec.Converts (P.at_ facts) P.conv calls w m T S e → getNamedType T = some o → ¬ P.MayBeErrorInterface o

/-! ## The same results, apart from the names shown -/

/-- The same name, or the new name of a variable. -/
def Renaming.Shown (ρ : Renaming) (n n' : GoString) : Prop := n' = n ∨ ∃ x, ρ.new x = some n'

/-- The same report about a body, perhaps with another name of a variable. -/
inductive Renaming.SameMsg (ρ : Renaming) : Msg → Msg → Prop where
  | refl {m} : SameMsg ρ m m
  | lambdaDestructured {n n'} : ρ.Shown n n' → SameMsg ρ (.lambdaDestructured n) (.lambdaDestructured n')
  | lambdaUnsupported {n n'} : ρ.Shown n n' → SameMsg ρ (.lambdaUnsupported n) (.lambdaUnsupported n')
  | paramNotDeclared {n n'} : ρ.Shown n n' → SameMsg ρ (.paramNotDeclared n) (.paramNotDeclared n')
  | paramDestructured {n n'} : ρ.Shown n n' → SameMsg ρ (.paramDestructured n) (.paramDestructured n')

/-- The same report about a type, perhaps with another name of a variable. -/
inductive Renaming.SameTagMsg (ρ : Renaming) : TagMsg → TagMsg → Prop where
  | refl {m} : SameTagMsg ρ m m
  | destructured {n n'} : ρ.Shown n n' → SameTagMsg ρ (.destructured n) (.destructured n')
  | assignment {m m'} : ρ.SameMsg m m' → SameTagMsg ρ (.assignment m) (.assignment m')

/-- Two lists with corresponding elements, in order. -/
inductive Pairwise₂ {α β : Type} (R : α → β → Prop) : List α → List β → Prop where
  | nil : Pairwise₂ R [] []
  | cons {a b l l'} : R a b → Pairwise₂ R l l' → Pairwise₂ R (a :: l) (b :: l')

/-- The same outcome: the same facts, and in each phase the same reports at the same places in the same order; only names of variables
in their texts may differ. -/
structure Renaming.SameOutcome (ρ : Renaming) (a b : Outcome) : Prop where
  facts : b.facts = a.facts
  tags : Pairwise₂ (fun d d' => d'.at_ = d.at_ ∧ ρ.SameTagMsg d.msg d'.msg) a.tags b.tags
  ifaces : b.ifaces = a.ifaces
  signatures : b.signatures = a.signatures
  claims : b.claims = a.claims
  bodies : Pairwise₂ (fun d d' => d'.1 = d.1 ∧ d'.2.at_ = d.2.at_ ∧ ρ.SameMsg d.2.msg d'.2.msg) a.bodies b.bodies
  mismatches : b.mismatches = a.mismatches
  conversions : b.conversions = a.conversions

end Serum
