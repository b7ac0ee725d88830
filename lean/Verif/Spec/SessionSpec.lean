import Verif.Session
import Verif.Spec.RunSpec
import Verif.Props.RunExports

/-! # Specification: several packages -/

namespace Serum.SessionSpec
open RunSpec

/-- The object is declared by the package: a function or method, an interface method, or a type. -/
inductive Belongs (P : Package) (o : Object) : Prop where
  | func {f} : f ∈ P.funcs → P.env.funcObj f = o → Belongs P o
  | method {d im} : d ∈ P.ifaces → .method im ∈ d.elements → P.methodObj im.ident.id = o → Belongs P o
  | interface {d} : d ∈ P.ifaces → d.obj = o → Belongs P o
  | type {spec} : spec ∈ P.specs → spec.typ = .named o → Belongs P o

/-- The package, without imported facts. -/
def alone (P : Package) : Package := { P with env := { P.env with facts := .empty } }

/-- What the type checker guarantees about the packages of a program: inside each package different declarations declare different
objects, and different packages declare different objects. -/
structure Packages (ms : List Member) : Prop where
  objects : ∀ m ∈ ms, Objects (alone m.pkg)
  types : ∀ m ∈ ms, Props.Run.Types (alone m.pkg)
  interfaces : ∀ m ∈ ms, Props.Interfaces.Program m.pkg.ifaces
  apart : ms.Pairwise fun m q => ∀ o, Belongs m.pkg o → ¬ Belongs q.pkg o

/-- `m` imports `q`, directly or indirectly, and `o` can be referred to in `m` because of that. -/
inductive Passes (imports : Member → Member → Prop) (visible : Member → Object → Prop) (q : Member) (o : Object) : Member → Prop where
  | direct {m} : imports m q → visible q o → Passes imports visible q o m
  | through {m r} : imports m r → visible r o → Passes imports visible q o r → Passes imports visible q o m

/-- `m` imports `q`, directly or indirectly. -/
inductive Below (imports : Member → Member → Prop) (q : Member) : Member → Prop where
  | direct {m} : imports m q → Below imports q m
  | through {m r} : imports m r → Below imports q r → Below imports q m

end Serum.SessionSpec
