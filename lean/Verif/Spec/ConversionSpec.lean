import Verif.Conversions
import Verif.Spec.Within

/-!
# Specification: where Go converts values to other types

Which values are converted to which types by a piece of syntax, after "Assignability", "Calls",
"Conversions", "Composite literals", "Return statements", "For statements" and "Send statements" of the
Go language specification.  Independent of `interfaces_verify.go`.
-/

namespace Serum.ConvSpec
open Conv (Info)

/-- Facts about call expressions which the analyzer does not look at: whether `f(x)` is a conversion to the
type `f`, and whether the last argument is spread (`f(xs...)`). -/
structure CallKind where
  isConversion : NodeId → Bool
  spread : NodeId → Bool

/-- The underlying type. -/
def under (info : Info) : GoType → GoType
  | .named o => info.underlying o
  | t => t

/-- The type whose literal is built by a composite literal: in `[]*T{{…}}` the inner literal has type `*T`. -/
def literalType (info : Info) : GoType → GoType
  | .pointer t => under info t
  | t => under info t

/-- The value of an element of a composite literal. -/
inductive ElementValue : Node → Node → Prop where
  | keyed (id k v) : ElementValue (.keyValue id k v) v
  | plain (e) : (∀ id k v, e ≠ .keyValue id k v) → ElementValue e e

/-- The type expressions of all results, one per result. -/
def resultTypes (fields : List Field) : List NodeId :=
  fields.flatMap fun f => List.replicate (max 1 f.names.length) f.typ

/-- Iterating over a value of type `t` yields (second) values of type `e`. -/
def RangeElem (info : Info) (t e : GoType) : Prop :=
  under info t = .slice e ∨ under info t = .array e ∨ (∃ k, under info t = .map k e) ∨
  ∃ q, under info t = .pointer q ∧ under info q = .array e

/-- `t` is a tuple. -/
def IsTuple (t : GoType) : Prop := ∃ n, t = .tuple n

/-- `Converts env info calls within n target source e`: at node `n`, which is in the body of a function of type
`within` (if any), a value of type `source`, from the expression `e`, is converted to type `target`. -/
inductive Converts (env : Env) (info : Info) (calls : CallKind) (within_ : Option FuncType) :
    Node → GoType → GoType → NodeId → Prop where
  /-- `a, b = x, y` -/
  | assign {id} {lhs rhs : List Node} {i : Nat} {l r : Node} : lhs.length = rhs.length → lhs[i]? = some l → rhs[i]? = some r →
      Converts env info calls within_ (.assign id lhs rhs) (env.typeOf l.id) (env.typeOf r.id) r.id
  /-- `a, b = f()` -/
  | assignMany {id} {lhs : List Node} {r : Node} {t i : Nat} {l : Node} {s : GoType} : lhs.length ≠ 1 → env.typeOf r.id = .tuple t → lhs[i]? = some l →
      (info.tuple t)[i]? = some s → Converts env info calls within_ (.assign id lhs [r]) (env.typeOf l.id) s r.id
  /-- `var a, b T = x, y` -/
  | var {id} {names : List Ident} {type : NodeId} {values : List Node} {v : Node} : names.length = values.length → v ∈ values →
      Converts env info calls within_ (.valueSpec id names (some type) values) (env.typeOf type) (env.typeOf v.id) v.id
  /-- `var a, b T = f()` -/
  | varMany {id} {names : List Ident} {type : NodeId} {v : Node} {t i : Nat} {s : GoType} : names.length ≠ 1 → env.typeOf v.id = .tuple t → i < names.length →
      (info.tuple t)[i]? = some s →
      Converts env info calls within_ (.valueSpec id names (some type) [v]) (env.typeOf type) s v.id
  /-- `f(a)`, for a parameter other than a variadic one -/
  | argument {id} {fn : Node} {args : List Node} {s i : Nat} {p : GoType} {a : Node} : calls.isConversion id = false → under info (env.typeOf fn.id) = .signature s →
      (info.params s)[i]? = some p → (info.variadic s = true → i + 1 < (info.params s).length) →
      args[i]? = some a → ¬ IsTuple (env.typeOf a.id) →
      Converts env info calls within_ (.call id fn args) p (env.typeOf a.id) a.id
  /-- `f(a)`, for a variadic parameter -/
  | variadicArgument {id} {fn : Node} {args : List Node} {s i : Nat} {e : GoType} {a : Node} : calls.isConversion id = false → calls.spread id = false →
      under info (env.typeOf fn.id) = .signature s → info.variadic s = true →
      (info.params s).getLast? = some (.slice e) → (info.params s).length ≤ i + 1 → args[i]? = some a →
      ¬ IsTuple (env.typeOf a.id) →
      Converts env info calls within_ (.call id fn args) e (env.typeOf a.id) a.id
  /-- `f(a...)` -/
  | spreadArgument {id} {fn : Node} {args : List Node} {s : Nat} {p : GoType} {a : Node} : calls.isConversion id = false → calls.spread id = true →
      under info (env.typeOf fn.id) = .signature s → info.variadic s = true →
      (info.params s).getLast? = some p → args.getLast? = some a →
      Converts env info calls within_ (.call id fn args) p (env.typeOf a.id) a.id
  /-- `f(g())` -/
  | forwardedArgument {id} {fn a : Node} {s t i : Nat} {p q : GoType} : calls.isConversion id = false →
      under info (env.typeOf fn.id) = .signature s → (info.params s)[i]? = some p →
      (info.variadic s = true → i + 1 < (info.params s).length) → env.typeOf a.id = .tuple t →
      (info.tuple t)[i]? = some q → Converts env info calls within_ (.call id fn [a]) p q a.id
  /-- `f(g())`, for a variadic parameter -/
  | forwardedVariadic {id} {fn a : Node} {s t i : Nat} {e q : GoType} : calls.isConversion id = false → calls.spread id = false →
      under info (env.typeOf fn.id) = .signature s → info.variadic s = true →
      (info.params s).getLast? = some (.slice e) → (info.params s).length ≤ i + 1 → env.typeOf a.id = .tuple t →
      (info.tuple t)[i]? = some q → Converts env info calls within_ (.call id fn [a]) e q a.id
  /-- `T(a)` -/
  | conversion {id} {fn a : Node} : calls.isConversion id = true →
      Converts env info calls within_ (.call id fn [a]) (env.typeOf fn.id) (env.typeOf a.id) a.id
  /-- `x.(T)`, for an interface `T` which the type of `x` is known to implement -/
  | assertion {id} {x : Node} {type : NodeId} {n : Nat} : under info (env.typeOf type) = .interface n → info.implements (env.typeOf x.id) n = true →
      Converts env info calls within_ (.typeAssert id x (some type)) (env.typeOf type) (env.typeOf x.id) x.id
  /-- `switch y := x.(type) { case T: }`, likewise -/
  | typeCase {id init aid lhs tid ty cid body} {x e : Node} {cases types : List Node} {n : Nat} : .caseClause cid types body ∈ cases → e ∈ types →
      under info (env.typeOf e.id) = .interface n → info.implements (env.typeOf x.id) n = true →
      Converts env info calls within_ (.typeSwitch id init (.assign aid lhs [.typeAssert tid x ty]) cases)
        (env.typeOf e.id) (env.typeOf x.id) e.id
  /-- `m[k]` -/
  | mapIndex {id} {x idx : Node} {k e : GoType} : under info (env.typeOf x.id) = .map k e →
      Converts env info calls within_ (.index id x idx) k (env.typeOf idx.id) idx.id
  /-- `S{Field: v}` -/
  | keyedField {id} {elts : List Node} {n : Nat} {name : GoString} {type : GoType} {kid} {k : Ident} {v : Node} : literalType info (env.typeOf id) = .struct n →
      (name, type) ∈ info.fields n → .keyValue kid (.ident k) v ∈ elts → k.name = name →
      Converts env info calls within_ (.compositeLit id elts) type (env.typeOf v.id) v.id
  /-- `S{v}` -/
  | field {id} {elts : List Node} {n : Nat} {name : GoString} {type : GoType} {i : Nat} {e : Node} : literalType info (env.typeOf id) = .struct n →
      (info.fields n)[i]? = some (name, type) → elts[i]? = some e → (∀ kid k v, e ≠ .keyValue kid k v) →
      Converts env info calls within_ (.compositeLit id elts) type (env.typeOf e.id) e.id
  /-- `[]T{v}`, `[2]T{1: v}`, `map[K]T{k: v}` -/
  | element {id} {elts : List Node} {t : GoType} {e v : Node} : (literalType info (env.typeOf id) = .slice t ∨ literalType info (env.typeOf id) = .array t ∨
        ∃ k, literalType info (env.typeOf id) = .map k t) → e ∈ elts → ElementValue e v →
      Converts env info calls within_ (.compositeLit id elts) t (env.typeOf v.id) v.id
  /-- `map[T]V{k: v}` -/
  | mapKey {id} {elts : List Node} {t e : GoType} {kid} {k v : Node} : literalType info (env.typeOf id) = .map t e → .keyValue kid k v ∈ elts →
      Converts env info calls within_ (.compositeLit id elts) t (env.typeOf k.id) k.id
  /-- `return x, y` -/
  | result {id} {results : List Node} {ft : FuncType} {fields : List Field} {i : Nat} {type : NodeId} {e : Node} : within_ = some ft → ft.results = some fields →
      results.length = (resultTypes fields).length → (resultTypes fields)[i]? = some type → results[i]? = some e →
      Converts env info calls within_ (.ret id results) (env.typeOf type) (env.typeOf e.id) e.id
  /-- `return f()` -/
  | resultMany {id} {e : Node} {ft : FuncType} {fields : List Field} {t i : Nat} {type : NodeId} {s : GoType} : within_ = some ft → ft.results = some fields →
      (resultTypes fields).length ≠ 1 → env.typeOf e.id = .tuple t → (resultTypes fields)[i]? = some type →
      (info.tuple t)[i]? = some s → Converts env info calls within_ (.ret id [e]) (env.typeOf type) s e.id
  /-- `for k := range m`, `for v := range ch` -/
  | rangeKey {id} {key : Node} {value} {x : Node} {body} {k : GoType} : ((∃ e, under info (env.typeOf x.id) = .map k e) ∨
        under info (env.typeOf x.id) = .chan k) →
      Converts env info calls within_ (.range id (some key) value x body) (env.typeOf key.id) k x.id
  /-- `for _, v := range xs` -/
  | rangeValue {id key} {value x : Node} {body} {e : GoType} : RangeElem info (env.typeOf x.id) e →
      Converts env info calls within_ (.range id key (some value) x body) (env.typeOf value.id) e x.id
  /-- `ch <- v` -/
  | send {id} {ch value : Node} {t : GoType} : under info (env.typeOf ch.id) = .chan t →
      Converts env info calls within_ (.send id ch value) t (env.typeOf value.id) value.id

/-- `T` is an interface with error methods `ms` (or a pointer to one), according to the recorded facts. -/
def IsErrorInterface (env : Env) (T : GoType) (ms : List (GoString × CodeSet)) : Prop :=
  ∃ o, getNamedType T = some o ∧ env.facts.interface o = some ms

/-- `T` is not. -/
def NoErrorInterface (env : Env) (T : GoType) : Prop := ∀ ms, ¬ IsErrorInterface env T ms

/-- A signature without parameters that are error interfaces. -/
def NoParams (env : Env) (info : Info) (s : Nat) : Prop :=
  ∀ p ∈ info.params s, NoErrorInterface env p ∧ ∀ e, p = .slice e → NoErrorInterface env e

/-- What the type checker guarantees about the parts of a node: as many values as there are places for them, and types
of the right kind. -/
def WellTyped (env : Env) (info : Info) (calls : CallKind) (within_ : Option FuncType) : Node → Prop
  | .assign _ lhs rhs => lhs.length = rhs.length ∨
      ∃ r t, rhs = [r] ∧ lhs.length ≠ 1 ∧ env.typeOf r.id = .tuple t ∧ (info.tuple t).length = lhs.length
  | .valueSpec _ names _ values => values = [] ∨ names.length = values.length ∨
      ∃ v t, values = [v] ∧ names.length ≠ 1 ∧ env.typeOf v.id = .tuple t ∧ (info.tuple t).length = names.length
  | .call id fn args =>
    (calls.isConversion id = true ∧ ∃ a, args = [a] ∧ ¬ IsTuple (env.typeOf a.id)) ∨
    -- a call of a predeclared function with a constant result; no type is recorded for the function
    (calls.isConversion id = false ∧ getNamedType (env.typeOf fn.id) = none ∧
      ∀ s, under info (env.typeOf fn.id) ≠ .signature s) ∨
    (calls.isConversion id = false ∧ ∃ s, under info (env.typeOf fn.id) = .signature s ∧
      (info.variadic s = true → ∃ p, (info.params s).getLast? = some p ∧ NoErrorInterface env p) ∧
      ((args ≠ [] ∧ (∀ a ∈ args, ¬ IsTuple (env.typeOf a.id)) ∧
          (info.variadic s = false → args.length = (info.params s).length) ∧
          (info.variadic s = true → (info.params s).length ≤ args.length + 1)) ∨
        args = [] ∨ ∃ a, args = [a] ∧ IsTuple (env.typeOf a.id)))
  | .typeAssert _ _ (some type) =>
      ∀ o, env.typeOf type = .named o → ∀ ms, env.facts.interface o = some ms → ∃ n, info.underlying o = .interface n
  | .typeSwitch _ _ assign cases => (∀ id lhs rhs, assign = .assign id lhs rhs → ∃ tid x ty, rhs = [.typeAssert tid x ty]) ∧
      ∀ c ∈ cases, ∃ cid types body, c = .caseClause cid types body
  | .index _ x _ => ∀ t, env.typeOf x.id = .pointer t → ∀ o, getNamedType t = some o → ∀ k e, info.underlying o ≠ .map k e
  | .compositeLit id elts =>
    (∀ n, literalType info (env.typeOf id) = .struct n →
      (∃ kvs : List (NodeId × Ident × Node), elts = kvs.map (fun p => .keyValue p.1 (.ident p.2.1) p.2.2) ∧
        (kvs.map fun p => p.2.1.name).Nodup) ∨
      (elts.length = (info.fields n).length ∧ ∀ e ∈ elts, ∀ kid k v, e ≠ .keyValue kid k v)) ∧
    (∀ k e, literalType info (env.typeOf id) = .map k e → ∀ x ∈ elts, ∃ kid k v, x = .keyValue kid k v)
  | .ret _ results => ∃ ft, within_ = some ft ∧ (results ≠ [] → ∃ fields, ft.results = some fields ∧
      (results.length = (resultTypes fields).length ∨
        ∃ e t, results = [e] ∧ (resultTypes fields).length ≠ 1 ∧ env.typeOf e.id = .tuple t ∧
          (info.tuple t).length = (resultTypes fields).length))
  | .range _ key value x _ =>
    (∀ k, key = some k → NoErrorInterface env (env.typeOf k.id) ∨
      (∀ t, env.typeOf x.id ≠ .pointer t) ∧
      ((∃ k e, under info (env.typeOf x.id) = .map k e) ∨ ∃ k, under info (env.typeOf x.id) = .chan k)) ∧
    (∀ v, value = some v → (∃ k, key = some k) ∧
      (NoErrorInterface env (env.typeOf v.id) ∨ ∃ e, RangeElem info (env.typeOf x.id) e))
  | .send _ ch _ => (∀ t, env.typeOf ch.id ≠ .pointer t) ∧ ∃ t, under info (env.typeOf ch.id) = .chan t
  | _ => True

/-- What the analyzer does not treat correctly is avoided (see `Props/Conversions.lean` for what happens otherwise). -/
def Supported (env : Env) (info : Info) (calls : CallKind) (within_ : Option FuncType) : Node → Prop
  | .call id fn args =>
    -- no conversion to a function type
    (calls.isConversion id = true → ∀ s, env.typeOf fn.id ≠ .signature s) ∧
    (calls.isConversion id = false → ∀ s, under info (env.typeOf fn.id) = .signature s →
      -- no function of a named function type
      env.typeOf fn.id = .signature s ∧
      -- no spread argument and no call as the only argument, unless the parameters do not matter
      (NoParams env info s ∨ calls.spread id = false ∧ ∀ a, args = [a] → ¬ IsTuple (env.typeOf a.id)))
  | .typeAssert _ _ (some type) => ∀ t, env.typeOf type = .pointer t → NoErrorInterface env (.pointer t)
  | .typeSwitch _ _ _ cases => ∀ cid types body, .caseClause cid types body ∈ cases → ∀ e ∈ types,
      ∀ t, env.typeOf e.id = .pointer t → NoErrorInterface env (.pointer t)
  | .compositeLit id _ => ∀ t, env.typeOf id = .pointer t → ∃ o, t = .named o
  | .ret _ results => ∀ ft fields, within_ = some ft → ft.results = some fields → results ≠ [] →
      (∀ t ∈ resultTypes fields, NoErrorInterface env (env.typeOf t)) ∨ results.length = (resultTypes fields).length
  | .range _ _ value x _ => ∀ v, value = some v →
      NoErrorInterface env (env.typeOf v.id) ∨ ∀ q, under info (env.typeOf x.id) = .pointer q →
        (∃ e, q = .array e) ∨ (∃ o, env.typeOf x.id = .pointer (.named o))
  | _ => True

/-- The nodes of a function or declaration with the function type around them: `Around w n m w'` — walking from `n`,
which is inside a function of type `w`, to its part `m`, one is inside a function of type `w'`. -/
inductive Around : Option FuncType → Node → Node → Option FuncType → Prop where
  | self {w n} : (∀ id f t b, n ≠ .funcLit id f t b) → Around w n n w
  | lit {w id f t b} : Around w (.funcLit id f t b) (.funcLit id f t b) (some t)
  | inside {w n c m w'} : (∀ id f t b, n ≠ .funcLit id f t b) → c ∈ n.children → Around w c m w' → Around w n m w'
  | body {w id f t b c m w'} : c ∈ b → Around (some t) c m w' → Around w (.funcLit id f t b) m w'

/-- Node `m` occurs in the package, inside a function of type `w` (if any). -/
def InPackage (env : Env) (decls : List Conv.TopDecl) (m : Node) (w : Option FuncType) : Prop :=
  (∃ f body n, Conv.TopDecl.func f ∈ decls ∧ (env.func f).body = some body ∧ n ∈ body ∧
    Around (some (env.func f).type) n m w) ∨
  (∃ n, Conv.TopDecl.node n ∈ decls ∧ Around none n m w)

end Serum.ConvSpec
