import Verif.Spec.SessionSpec
import Verif.Props.Conversions
import Verif.Props.Soundness

/-!
# Specification: executing a program made of several packages

`Runtime.Yields` says what executing a function of one package may return, where calls of functions that are known by their
declaration are left open (`Extra.declared`).  Here they are filled in: such a call executes the called function, which may be in
another package; a call of an interface method executes a method of some type whose values get into variables of that interface.
-/

namespace Serum.Linked
open SessionSpec RunSpec ConvSpec Runtime

/-- The types of the whole program, with a common numbering. -/
structure Universe where
  /-- the method sets -/
  methods : GoType → GoString → Option Object
  /-- the types of type declarations -/
  underlying : Object → GoType

/-- `T` is an interface type. -/
def Universe.Interface (U : Universe) (T : GoType) : Prop :=
  ∃ n : Nat, (match T with | .named o => U.underlying o | t => t) = GoType.interface n

/-- The package with what is known while its functions are compared with their declarations. -/
abbrev comparing (m : Member) : Env := m.pkg.at_ (during m.pkg m.out.facts)

/-- The package with what is known while its conversions are checked. -/
abbrev converting (m : Member) : Env := m.pkg.at_ m.out.facts

variable (U : Universe) (ms : List Member) (calls : Member → CallKind)

/-- Somewhere in the package a value of type `J` is converted to type `I`. -/
def Converted (m : Member) (I J : GoType) : Prop :=
  ∃ e, Props.Conversions.ConvertedTo (converting m) m.pkg.conv (calls m) m.pkg.top I J e

/-- Somewhere in the package it is checked at run time whether a value of type `J` implements the interface `I`, and then it is used
as an `I`: `x.(I)`, `switch y := x.(type) { case I: … }`. -/
def Asserted (m : Member) (I J : GoType) : Prop :=
  ∃ n w, InPackage (converting m) m.pkg.top n w ∧
    ((∃ id x t, n = .typeAssert id x (some t) ∧ J = m.pkg.env.typeOf x.id ∧ I = m.pkg.env.typeOf t) ∨
     ∃ id init aid lhs tid x ty cid cases types body e, n = .typeSwitch id init (.assign aid lhs [.typeAssert tid x ty]) cases ∧
       .caseClause cid types body ∈ cases ∧ e ∈ types ∧ J = m.pkg.env.typeOf x.id ∧ I = m.pkg.env.typeOf e.id)

/-- Values of type `T` (not an interface type) may get into variables of the interface type `I`. -/
inductive Holds (T : GoType) : GoType → Prop where
  | converted {m I} : m ∈ ms → ¬ U.Interface T → T ≠ .untypedNil → Converted calls m I T → U.Interface I → Holds T I
  | passed {m I J} : m ∈ ms → Holds T J → Converted calls m I J → U.Interface I → Holds T I
  | asserted {m I J} : m ∈ ms → Holds T J → Asserted m I J → U.Interface I → Holds T I

/-- Calling `q` may execute the function `g` of package `k`: it is this function; or it is a method of an interface, and `g` is the
method (of this name) of a type whose values may get into variables of this interface.  (For a type with an embedded interface, that
method is again an interface method.) -/
inductive Executes : Object → Member → FnId → Prop where
  | static {k g} : k ∈ ms → g ∈ k.pkg.funcs → Executes (k.pkg.env.funcObj g) k g
  | dynamic {I T name q q' k g} : U.methods I name = some q → Holds U ms calls T I → U.methods T name = some q' →
      Executes q' k g → Executes q k g

/-- Executing function `f` of package `m`, with `arg` as error code argument, may return the error `o`; at most `n` nested calls of
functions known by their declaration are made. -/
def Returns (X : Member → Extra) : Nat → Member → FnId → GoString → Obj → Prop
  | 0, _, _, _, _ => False
  | n + 1, m, f, arg, o =>
    Yields (comparing m) { X m with declared := fun q a o => ∃ k g, Executes U ms calls q k g ∧ Returns X n k g a o } (.ret f arg) o

/-! ## What is declared -/

/-- The package that declares the object has recorded the fact for it. -/
def Recorded (o : Object) (x : Fact) : Prop := ∃ q ∈ ms, Belongs q.pkg o ∧ q.out.facts.Has o x

/-- The interface has declared the codes `S` for a method. -/
def Promised (I : GoType) (name : GoString) (S : CodeSet) : Prop :=
  ∃ o tab, getNamedType I = some o ∧ Recorded ms o (.interface tab) ∧ (name, S) ∈ tab

/-- If a package of the program declares the object, `m` can refer to it: it is that package, or imports it. -/
def Refers (imports : Member → Member → Prop) (visible : Member → Object → Prop) (m : Member) (o : Object) : Prop :=
  ∀ q ∈ ms, Belongs q.pkg o → q = m ∨ Passes imports visible q o m

/-- What the type checker guarantees. -/
structure TypeChecked (imports : Member → Member → Prop) (visible : Member → Object → Prop) : Prop where
  methods : ∀ m ∈ ms, m.pkg.env.methodSet = U.methods
  /-- where a value is converted, its type with its methods and the target type can be referred to -/
  target : ∀ m ∈ ms, ∀ I J, Converted calls m I J → ∀ o, getNamedType I = some o → Refers ms imports visible m o
  source : ∀ m ∈ ms, ∀ I J, Converted calls m I J → ∀ name o, U.methods J name = some o → Refers ms imports visible m o
  /-- the methods of an interface are those declared in it and those of the interfaces it embeds -/
  own : ∀ m ∈ ms, ∀ d ∈ m.pkg.ifaces, ∀ im, .method im ∈ d.elements → ∃ q, U.methods (.named d.obj) im.ident.name = some q
  embedded : ∀ m ∈ ms, ∀ d ∈ m.pkg.ifaces, ∀ e, .embedded e ∈ d.elements → ∀ name q, U.methods (m.pkg.env.typeOf e.id) name = some q →
    ∃ q', U.methods (.named d.obj) name = some q'
  only : ∀ m ∈ ms, ∀ d ∈ m.pkg.ifaces, ∀ name q, U.methods (.named d.obj) name = some q →
    (∃ im, .method im ∈ d.elements ∧ im.ident.name = name ∧ q = m.pkg.methodObj im.ident.id) ∨
    ∃ e, .embedded e ∈ d.elements ∧ U.methods (m.pkg.env.typeOf e.id) name = some q
  /-- `a.I` is an interface type of another package -/
  qualified : ∀ m ∈ ms, ∀ d ∈ m.pkg.ifaces, ∀ id, .embedded (.qualified id) ∈ d.elements → ∃ o, m.pkg.env.typeOf id = .named o ∧
    ∀ k ∈ ms, Belongs k.pkg o → Passes imports visible k o m

/-- The limits of the analyzer.  Each excludes programs for which the claim is false of the code: `Props/LinkedLimits.lean` has one for each. -/
structure Supported : Prop where
  /-- values only get into variables of declared interfaces (`type I interface { … }`), or those whose methods have no declared codes -/
  named : ∀ T I name q S, Holds U ms calls T I → U.methods I name = some q → Recorded ms q (.codes S) →
    ∃ m ∈ ms, ∃ d ∈ m.pkg.ifaces, I = .named d.obj
  /-- embedded interfaces can be found by their names, and are declared interfaces too, unless their methods have no declared codes -/
  embedded : ∀ m ∈ ms, ∀ d ∈ m.pkg.ifaces, ∀ id, ∀ d' ∈ m.pkg.ifaces, .embedded (.name id d'.name) ∈ d.elements →
    m.pkg.env.typeOf id = .named d'.obj
  found : ∀ m ∈ ms, ∀ d ∈ m.pkg.ifaces, ∀ e, .embedded e ∈ d.elements → ∀ name q S, U.methods (m.pkg.env.typeOf e.id) name = some q →
    Recorded ms q (.codes S) → match e with
    | .name _ n => ∃ d' ∈ m.pkg.ifaces, d'.name = n
    | .qualified id => ∃ k ∈ ms, ∃ d' ∈ k.pkg.ifaces, m.pkg.env.typeOf id = .named d'.obj
  /-- if codes are declared for a method of an interface, then also where the method comes from (if several embedded interfaces have it) -/
  documented : ∀ T I name S q, Holds U ms calls T I → Promised ms I name S → U.methods I name = some q → ∃ S', Recorded ms q (.codes S')
  /-- interfaces from which values are passed on to interfaces that declare codes of a method also declare codes for it -/
  tight : ∀ T J I name S m, m ∈ ms → Holds U ms calls T J → Converted calls m I J → Promised ms I name S → ∃ S', Promised ms J name S'
  /-- only assertions that are known to succeed -/
  assertions : ∀ T J I name S m, m ∈ ms → Holds U ms calls T J → Asserted m I J → Promised ms I name S → Converted calls m I J
  /-- the methods of the types whose values get into such variables declare their codes.  (If such a method is in the package where a
  value is converted, the analyzer looks at its body instead; this is not covered here.) -/
  declared : ∀ T I name S q, Holds U ms calls T I → Promised ms I name S → U.methods T name = some q → ∃ C, Recorded ms q (.codes C)
  /-- and they are no error constructors -/
  constructors : ∀ T I name S q p, Holds U ms calls T I → Promised ms I name S → U.methods T name = some q → ¬ Recorded ms q (.ctor p)

/-! ## What is accepted -/

/-- The run over the package has reported nothing about function bodies, declarations that do not fit, and conversions. -/
structure Silent (out : Outcome) : Prop where
  bodies : out.bodies = []
  mismatches : out.mismatches = []
  conversions : out.conversions = []

/-- The package is in the scope of the claims about single packages: C24, C31. -/
structure InScope (X : Extra) (kinds : CallKind) (m : Member) : Prop where
  ascii : PrintsAscii m.pkg.env.isPrint
  foreign : ForeignStores X
  literals : ∀ f c, Compared m.pkg f c → Props.CallGraph.Settled (m.pkg.plan (during m.pkg m.out.facts)) f
  functions : ∀ g, Analysed m.pkg m.out.facts g → Props.Soundness.InScope (comparing m) X g
  conversions : Props.Conversions.Fine (converting m) m.pkg.conv kinds m.pkg.top

/-- The package declares no codes of functions, and knows no interfaces with declared codes (like the standard library). -/
structure Plain (m : Member) : Prop where
  functions : ∀ f c, ¬ Compared m.pkg f c
  interfaces : ∀ o, m.out.facts.interface o = none

/-- A package which is in scope and accepted by the analyzer; or a plain one. -/
def Fit (X : Extra) (kinds : CallKind) (m : Member) : Prop := (InScope X kinds m ∧ Silent m.out) ∨ Plain m

/-- No embedded interface of the package was reported as incompatible. -/
def Compatible (m : Member) : Prop := ¬ ∃ x ∈ m.out.ifaces, ∃ name text, x.msg = .incompatible name text

end Serum.Linked
