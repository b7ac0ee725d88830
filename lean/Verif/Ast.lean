import Verif.CodeSet
import Verif.Annotation

/-!
# The syntax trees and type information the analyzer reads

`go/ast` nodes, `ast.Object`s, `go/types` information and the fact store of `x/tools/go/analysis` are
not part of /repo.  They are modelled as data: syntax is an inductive type, and every answer of the
type checker (`pass.TypesInfo`, `types.Implements`, method sets) is a field of `Env`, i.e. a parameter
over which all theorems quantify.

Pointer identity of nodes, objects and types is modelled by numbers.
-/

namespace Serum

/-- Identity of a syntax node; also stands for its source range in diagnostics. -/
abbrev NodeId := Nat
/-- Identity of an `*ast.Object`: an index into `Env.objects`. -/
abbrev ObjId := Nat
/-- Identity of a `funcDeclOrLit` (analyse.go:94-96): an index into `Env.funcs`. -/
abbrev FnId := Nat
/-- Identity of a `types.Object` (functions, methods, type names). -/
abbrev Object := Nat

/-- `ast.ObjKind`. -/
inductive ObjKind | bad | pkg | con | typ | var | fun_ | lbl
deriving DecidableEq, Repr

/-- `*ast.Ident`: `obj` is its `Obj` field, `none` for nil. -/
structure Ident where
  id : NodeId
  name : GoString
  obj : Option ObjId
deriving DecidableEq, Repr

/-- `*ast.Field` of a parameter or result list. -/
structure Field where
  names : List Ident
  typ : NodeId
deriving DecidableEq, Repr

/-- `*ast.FuncType`; `results = none` is a nil `Results`; `resultsPos` is `Results.Pos()`. -/
structure FuncType where
  params : List Field
  results : Option (List Field)
  resultsPos : Nat
deriving DecidableEq, Repr

/-- Syntax nodes: the kinds the analyzer tells apart, and `other` for all remaining kinds (with their
children in source order).  Type expressions inside composite literals, conversions and type
assertions are represented by their node identity only; they contain no statements. -/
inductive Node where
  | ident (i : Ident)
  | basicLit (id : NodeId)
  | compositeLit (id : NodeId) (elts : List Node)
  | keyValue (id : NodeId) (key value : Node)
  | funcLit (id : NodeId) (fn : FnId) (type : FuncType) (body : List Node)
  | paren (id : NodeId) (x : Node)
  | selector (id : NodeId) (x : Node) (sel : Ident)
  | index (id : NodeId) (x idx : Node)
  | typeAssert (id : NodeId) (x : Node) (type : Option NodeId)
  | call (id : NodeId) (fn : Node) (args : List Node)
  | unary (id : NodeId) (isAnd : Bool) (x : Node)
  | assign (id : NodeId) (lhs rhs : List Node)
  | ret (id : NodeId) (results : List Node)
  | valueSpec (id : NodeId) (names : List Ident) (type : Option NodeId) (values : List Node)
  | typeSwitch (id : NodeId) (init : List Node) (assign : Node) (cases : List Node)
  | caseClause (id : NodeId) (types : List Node) (body : List Node)
  | range (id : NodeId) (key value : Option Node) (x : Node) (body : List Node)
  | send (id : NodeId) (ch value : Node)
  | other (id : NodeId) (children : List Node)

namespace Node

/-- The identity of a node. -/
def id : Node → NodeId
  | .ident i => i.id
  | .basicLit id | .compositeLit id _ | .keyValue id _ _ | .funcLit id _ _ _ | .paren id _
  | .selector id _ _ | .index id _ _ | .typeAssert id _ _ | .call id _ _ | .unary id _ _
  | .assign id _ _ | .ret id _ | .valueSpec id _ _ _ | .typeSwitch id _ _ _ | .caseClause id _ _
  | .range id _ _ _ _ | .send id _ _ | .other id _ => id

/-- `astutil.Unparen`. -/
def unparen : Node → Node
  | .paren _ x => x.unparen
  | n => n

mutual
/-- `ast.Inspect(n, f)`: the nodes for which `f` is called, in order, where `f` answers `go node`
(whether to look at the node's children). -/
def inspect (go : Node → Bool) : Node → List Node
  | .ident i => [.ident i]
  | .basicLit i => [.basicLit i]
  | .compositeLit i es =>
    .compositeLit i es :: if go (.compositeLit i es) then inspectList go es else []
  | .keyValue i k v =>
    .keyValue i k v :: if go (.keyValue i k v) then inspect go k ++ inspect go v else []
  | .funcLit i f t b =>
    .funcLit i f t b :: if go (.funcLit i f t b) then inspectList go b else []
  | .paren i x => .paren i x :: if go (.paren i x) then inspect go x else []
  | .selector i x s =>
    .selector i x s :: if go (.selector i x s) then inspect go x ++ [.ident s] else []
  | .index i x y => .index i x y :: if go (.index i x y) then inspect go x ++ inspect go y else []
  | .typeAssert i x t => .typeAssert i x t :: if go (.typeAssert i x t) then inspect go x else []
  | .call i f as =>
    .call i f as :: if go (.call i f as) then inspect go f ++ inspectList go as else []
  | .unary i a x => .unary i a x :: if go (.unary i a x) then inspect go x else []
  | .assign i l r =>
    .assign i l r :: if go (.assign i l r) then inspectList go l ++ inspectList go r else []
  | .ret i rs => .ret i rs :: if go (.ret i rs) then inspectList go rs else []
  | .valueSpec i ns t vs =>
    .valueSpec i ns t vs ::
      if go (.valueSpec i ns t vs) then ns.map .ident ++ inspectList go vs else []
  | .typeSwitch i s a cs =>
    .typeSwitch i s a cs ::
      if go (.typeSwitch i s a cs) then inspectList go s ++ inspect go a ++ inspectList go cs else []
  | .caseClause i ts b =>
    .caseClause i ts b ::
      if go (.caseClause i ts b) then inspectList go ts ++ inspectList go b else []
  | .range i k v x b =>
    .range i k v x b ::
      if go (.range i k v x b) then
        inspectOption go k ++ inspectOption go v ++ inspect go x ++ inspectList go b else []
  | .send i c v => .send i c v :: if go (.send i c v) then inspect go c ++ inspect go v else []
  | .other i cs => .other i cs :: if go (.other i cs) then inspectList go cs else []

/-- `ast.Inspect` on a list of nodes, in order. -/
def inspectList (go : Node → Bool) : List Node → List Node
  | [] => []
  | n :: ns => inspect go n ++ inspectList go ns

/-- `ast.Inspect` on an optional node. -/
def inspectOption (go : Node → Bool) : Option Node → List Node
  | none => []
  | some n => inspect go n
end

end Node

/-- `ast.Object.Decl`. -/
inductive Decl where
  | funcDecl (f : FnId)
  | typeSpec
  | valueSpec (names : List Ident) (values : List Node)
  | other

/-- `*ast.Object`: `pos` is `Pos()`, the position of the declaring identifier. -/
structure ObjInfo where
  kind : ObjKind
  pos : Nat
  decl : Decl

/-- A `*ast.FuncDecl` or `*ast.FuncLit` (analyse.go:88-92 `funcDefinition`).  `declName` is the name of
a declaration and `none` for literals; `body = none` is a declaration without body. -/
structure FuncDef where
  node : NodeId
  declName : Option Ident
  type : FuncType
  body : Option (List Node)
  bodyPos : Nat
  bodyEnd : Nat

/-- `types.Type`.  Composite parts that are lists (fields, parameters, methods) are kept in tables of
`Env`, indexed by a number that is equal for identical types, so that `types.Identical` is equality. -/
inductive GoType where
  | named (obj : Object)
  | pointer (elem : GoType)
  | slice (elem : GoType)
  | array (elem : GoType)
  | map (key elem : GoType)
  | chan (elem : GoType)
  | struct (n : Nat)
  | interface (n : Nat)
  | signature (n : Nat)
  | tuple (n : Nat)
  | string
  | untypedNil
  | other (n : Nat)
deriving DecidableEq, Repr

/-- `constant.Value`: a string or anything else. -/
inductive Const where
  | str (s : GoString)
  | other
deriving DecidableEq, Repr

/-- tag_error_types.go:26-29 `ErrorCodeField`. -/
structure ErrorCodeField where
  name : GoString
  position : Nat
deriving DecidableEq, Repr

/-- tag_error_types.go:19-22 `ErrorType`. -/
structure ErrorType where
  codes : CodeSet
  field : Option ErrorCodeField
deriving DecidableEq, Repr

/-- The facts that can be imported at some point of the run. -/
structure Facts where
  /-- analyse.go:43-45 `ErrorCodes`. -/
  codes : Object → Option CodeSet
  /-- analyse.go:52-54 `ErrorConstructor`. -/
  ctor : Object → Option Nat
  /-- tag_error_types.go:19-22 `ErrorType`, keyed by the type name. -/
  errorType : Object → Option ErrorType
  /-- interfaces_collect.go:17-24 `ErrorInterface`, keyed by the type name. -/
  interface : Object → Option (List (GoString × CodeSet))

/-- What the analyzer reads while looking at function bodies: syntax, type information, comments,
the function lookup (function_lookup.go) and facts. -/
structure Env where
  funcs : List FuncDef
  objects : List ObjInfo
  /-- `TypesInfo.TypeOf(expr)` and `TypesInfo.Types[expr].Type`. -/
  typeOf : NodeId → GoType
  /-- `TypesInfo.Types[expr].Value`. -/
  value : NodeId → Option Const
  /-- `typeutil.Callee(TypesInfo, call)`, by the call's node. -/
  callee : NodeId → Option Object
  /-- `TypesInfo.Uses[ident]`. -/
  uses : NodeId → Option Object
  /-- `TypesInfo.Selections[selector]`: receiver type and selected object. -/
  selection : NodeId → Option (GoType × Object)
  /-- `TypesInfo.ObjectOf(ident).(*types.PkgName)`: the imported package's name. -/
  pkgName : NodeId → Option GoString
  /-- `TypesInfo.ObjectOf(funcDecl.Name)`. -/
  funcObj : FnId → Object
  /-- `types.Implements(t, tError)`. -/
  implError : GoType → Bool
  /-- `types.Implements(t, tReeError)`. -/
  implCode : GoType → Bool
  /-- `types.Signature.Results().Len()`. -/
  sigResults : Nat → Nat
  /-- `methodSet(t).Lookup(pkg, name)`. -/
  methodSet : GoType → GoString → Option Object
  /-- `lookup.functions[name]` (function_lookup.go:16). -/
  functions : GoString → Option FnId
  /-- `lookup.methods[name]` (function_lookup.go:17). -/
  methods : GoString → List FnId
  /-- The texts of the comment groups attached to a node (`c.comments[node]`). -/
  comments : NodeId → List GoString
  /-- `unicode.IsPrint`, used by `strconv.Quote`. -/
  isPrint : Nat → Bool
  facts : Facts
  /-- The order in which the Go runtime iterates over the map `visitedIdents` when the fields of errors are
  looked at (analyse.go:845), for each function (each is looked at once per run). -/
  fieldOrder : FnId → List ObjId → List ObjId := fun _ visited => visited
  /-- It is an order of the elements of the map. -/
  fieldOrder_perm : ∀ f visited, (fieldOrder f visited).Perm visited := by intros; exact List.Perm.refl _

namespace Env

/-- The definition behind a `funcDeclOrLit`; identities outside the table stand for declarations
without body. -/
def func (env : Env) (f : FnId) : FuncDef := env.funcs.getD f ⟨0, none, ⟨[], none, 0⟩, none, 0, 0⟩

/-- The object behind an `*ast.Object`; identities outside the table stand for objects without
position. -/
def object (env : Env) (o : ObjId) : ObjInfo := env.objects.getD o ⟨.bad, 0, .other⟩

end Env

/-- analyse.go:219-233 `getNamedType`. -/
def getNamedType : GoType → Option Object
  | .named o => some o
  | .pointer e => getNamedType e
  | _ => none

/-- tag_error_types.go:117-129 `getErrorTypeForError`: `none` for an error or a missing fact. (The
callers in /repo treat both alike, apart from logging.) -/
def Env.getErrorTypeForError (env : Env) (t : GoType) : Option ErrorType :=
  match getNamedType t with
  | none => none
  | some o => env.facts.errorType o

/-- function_lookup.go:71-87 `searchMethodType`. -/
def Env.searchMethodType (env : Env) (receiver : GoType) (name : GoString) : Option Object :=
  match env.methodSet receiver name with
  | some o => some o
  | none =>
    match receiver with
    | .pointer _ => none
    | t => env.methodSet (.pointer t) name

/-- function_lookup.go:90-113 `searchMethod`. -/
def Env.searchMethod (env : Env) (receiver : GoType) (name : GoString) : Option FnId :=
  match env.methods name with
  | [] => none
  | methods =>
    match env.searchMethodType receiver name with
    | none => none
    | some o => methods.find? (fun m => env.funcObj m == o)

/-- The errors of `getErrorCodeFromConstant` (extract_error_code.go:173-195). -/
inductive ConstError where
  /-- line 180 "error code has to be of type string" -/
  | notString
  /-- line 186 "problem unquoting string constant value: %v" -/
  | unquoting
  /-- line 191 "error code has invalid format: %v" -/
  | format
deriving DecidableEq, Repr

/-- The messages reported while looking at function bodies, with what is inserted into their texts (`Messages.lean`). -/
inductive Msg where
  | annotation (d : AnnDiag)
  /-- analyse.go:600 "expression %T does not implement valid error type" -/
  | notErrorType
  /-- analyse.go:608 -/
  | typeSwitchUnsupported
  /-- analyse.go:611 -/
  | typeAssertUnsupported
  /-- analyse.go:614 -/
  | indexUnsupported
  /-- analyse.go:617 -/
  | exprUnsupported
  /-- analyse.go:673 "function %q in dot-imported package does not declare error codes" -/
  | dotImportUndeclared (function : GoString)
  /-- analyse.go:694 "function %q in package %q does not declare error codes" -/
  | foreignUndeclared (function package : GoString)
  /-- analyse.go:706 "invalid error source: definition of the unnamed function could not be found" -/
  | unnamedFunction
  /-- analyse.go:721 "called function does not declare error codes" -/
  | calleeUndeclared
  /-- analyse.go:736, 738 "error returning function literal may not be a parameter, ..." -/
  | lambdaOutOfScope
  /-- analyse.go:743 "unsupported: assigning result of function call to variable %q is not allowed" -/
  | lambdaDestructured (variable_ : GoString)
  /-- analyse.go:773 "unsupported: assignment to variable %q can only be ..." -/
  | lambdaUnsupported (variable_ : GoString)
  /-- analyse.go:787, 789 "returned error may not be a parameter, ..." -/
  | errorOutOfScope
  /-- analyse.go:811 "unsupported: tracking error codes for function call with error as non-last ..." -/
  | nonLastResult
  /-- extract_error_code.go:21 "expression does not define an error code" -/
  | noErrorCode
  /-- extract_error_code.go:27 "expression is not a valid error: ..." -/
  | invalidErrorType
  /-- extract_error_code.go:112 "could not find initialiser for error code field ..." -/
  | noInitialiser
  /-- extract_error_code.go:138 "unsupported use of error constructor %q" -/
  | constructorAsValue (callee : Object)
  /-- extract_error_code.go:154 with the error of getErrorCodeFromConstant -/
  | badConstant (e : ConstError)
  /-- extract_error_code.go:169, analyse.go:916 "error code has to be constant value or ..." -/
  | notConstant
  /-- extract_error_code.go:212 "require an error code parameter declaration to use %q as ..." -/
  | paramNotDeclared (param : GoString)
  /-- extract_error_code.go:241 "error code parameter may not be assigned an other parameter, ..." -/
  | paramOutOfScope
  /-- extract_error_code.go:245 "unsupported: assigning result of function call to error code ..." -/
  | paramDestructured (param : GoString)
deriving DecidableEq, Repr

/-- A diagnostic: the node it is reported for, and its message. -/
structure Diag where
  at_ : NodeId
  msg : Msg
deriving DecidableEq, Repr

end Serum
