import Verif.Spec.ConversionSpec
import Verif.Spec.CallGraphSpec

/-!
# Specification: which types are acceptable for an interface with error methods
-/

namespace Serum.ConvSpec

/-- Method `m` of a value of type `T` (or of `*T`, for a type that is not itself a pointer) is the object `o`. -/
inductive MethodOf (env : Env) (T : GoType) (m : GoString) (o : Object) : Prop where
  | direct : env.methodSet T m = some o → MethodOf env T m o
  | pointer : env.methodSet T m = none → (∀ t, T ≠ .pointer t) → env.methodSet (.pointer T) m = some o → MethodOf env T m o

/-- `f` is the declaration, in this package, of the method object `o` named `m`. -/
def Declares (env : Env) (f : FnId) (m : GoString) (o : Object) : Prop := f ∈ env.methods m ∧ env.funcObj f = o

/-- Method `m` of a value of type `T` is known to have code `c`: declared for it, or, without a declaration, found in
its body, where `plan` is the program. -/
inductive MethodCode {D : Type} (env : Env) (plan : FnId → Plan FnId D) (T : GoType) (m c : GoString) : Prop where
  | declared {o S} : MethodOf env T m o → env.facts.codes o = some S → c ∈ S → MethodCode env plan T m c
  | found {o f} : MethodOf env T m o → env.facts.codes o = none → Declares env f m o → CodesOf plan f c →
      MethodCode env plan T m c

/-- Values of type `T` may be used where an interface with error methods `ms` is expected: no method has a code that is
not declared by the interface. -/
def Acceptable {D : Type} (env : Env) (plan : FnId → Plan FnId D) (T : GoType) (ms : List (GoString × CodeSet)) : Prop :=
  ∀ m allowed, (m, allowed) ∈ ms → ∀ c, MethodCode env plan T m c → c ∈ allowed

end Serum.ConvSpec
