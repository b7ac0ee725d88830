import Verif.Run

/-! # Specification: what a package can come across

The facts of other packages reach a package with everything these packages declare.  The source can come across only a part of it:
the functions it calls or names, the types of its expressions and their parts, and the methods of these types. -/

namespace Serum

/-- The package with other facts about what it imports. -/
def Package.withImports (P : Package) (F : Facts) : Package := { P with env := { P.env with facts := F } }

namespace ImportSpec

/-- The type is the type of an expression of the package, or a part of such a type. -/
inductive TypeIn (P : Package) : GoType → Prop where
  | expr (n : NodeId) : TypeIn P (P.env.typeOf n)
  | underlying {T : GoType} {o : Object} : TypeIn P T → getNamedType T = some o → TypeIn P (P.conv.underlying o)
  | pointer {T : GoType} : TypeIn P (.pointer T) → TypeIn P T
  | slice {T : GoType} : TypeIn P (.slice T) → TypeIn P T
  | array {T : GoType} : TypeIn P (.array T) → TypeIn P T
  | key {K T : GoType} : TypeIn P (.map K T) → TypeIn P K
  | value {K T : GoType} : TypeIn P (.map K T) → TypeIn P T
  | chan {T : GoType} : TypeIn P (.chan T) → TypeIn P T
  | field {n : Nat} {f : GoString × GoType} : TypeIn P (.struct n) → f ∈ P.conv.fields n → TypeIn P f.2
  | param {n : Nat} {T : GoType} : TypeIn P (.signature n) → T ∈ P.conv.params n → TypeIn P T
  | component {n : Nat} {T : GoType} : TypeIn P (.tuple n) → T ∈ P.conv.tuple n → TypeIn P T

/-- The source can come across the object. -/
inductive Meets (P : Package) : Object → Prop where
  /-- it is what a call calls -/
  | callee {n : NodeId} {o : Object} : P.env.callee n = some o → Meets P o
  /-- it is what a name refers to -/
  | uses {n : NodeId} {o : Object} : P.env.uses n = some o → Meets P o
  /-- it is what a selector refers to -/
  | selection {n : NodeId} {T : GoType} {o : Object} : P.env.selection n = some (T, o) → Meets P o
  /-- it is a function or method of the package -/
  | own {f : FnId} : (P.env.func f).declName.isSome = true → Meets P (P.env.funcObj f)
  /-- it is the name of a type that occurs -/
  | type {T : GoType} {o : Object} : TypeIn P T → getNamedType T = some o → Meets P o
  /-- it is a method of a type that occurs, or of a pointer to it -/
  | method {T : GoType} {m : GoString} {o : Object} : TypeIn P T → P.env.methodSet T m = some o ∨ P.env.methodSet (.pointer T) m = some o →
      Meets P o

/-- The facts about the object are the same. -/
structure SameAt (a b : Facts) (o : Object) : Prop where
  codes : a.codes o = b.codes o
  ctor : a.ctor o = b.ctor o
  errorType : a.errorType o = b.errorType o
  interface : a.interface o = b.interface o

/-- Each fact about the object is the same after both runs, or as it was before either of them. -/
structure Recorded (before before' after after' : Facts) (o : Object) : Prop where
  codes : after'.codes o = after.codes o ∨ (after'.codes o = before'.codes o ∧ after.codes o = before.codes o)
  ctor : after'.ctor o = after.ctor o ∨ (after'.ctor o = before'.ctor o ∧ after.ctor o = before.ctor o)
  errorType : after'.errorType o = after.errorType o ∨ (after'.errorType o = before'.errorType o ∧ after.errorType o = before.errorType o)
  interface : after'.interface o = after.interface o ∨ (after'.interface o = before'.interface o ∧ after.interface o = before.interface o)

end ImportSpec
end Serum
