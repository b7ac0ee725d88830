import Verif.Run
import Verif.ClaimsLemmas
import Verif.Spec.CallGraphSpec
import Verif.Props.Reports
import Verif.Spec.AcceptSpec

/-! # What a run over a package is about: the functions it analyses, and what they declare -/

namespace Serum.RunSpec

/-- The declaration counts: it is a method, or no later function of the package has the same name (only `init` and `_` can be
declared repeatedly). -/
def Kept (P : Package) (f : FnId) : Prop :=
  ∃ pre post, P.funcs = pre ++ f :: post ∧
    (P.decls.recv f ≠ none ∨ ∀ g ∈ post, P.decls.recv g = none → P.decls.name g ≠ P.decls.name f)

/-- The last result implements `error`. -/
def ReturnsError (P : Package) (f : FnId) : Prop :=
  ∃ init last, (P.env.func f).type.results = some (init ++ [last]) ∧ P.env.implError (P.env.typeOf last.typ) = true

/-- The function has a valid declaration: its doc comment is accepted, and it lists codes, or says `none`, or names one of the
function's string parameters. -/
def Declares (P : Package) (f : FnId) (c : FuncCodes) : Prop :=
  ∃ r, findErrorDocs (P.decls.doc f) = .ok r ∧ c.codes = r.codes ∧
    ((r.param = [] ∧ c.param = none ∧ (r.codes ≠ [] ∨ r.none = true)) ∨
     (r.param ≠ [] ∧ ∃ pre i post, paramNames (P.env.func f).type.params = pre ++ i :: post ∧ i.name = r.param ∧
        (∀ j ∈ pre, j.name ≠ r.param) ∧ P.env.typeOf i.id = .string ∧ c.param = some ⟨i, pre.length⟩))

/-- The functions compared with their declaration. -/
def Compared (P : Package) (f : FnId) (c : FuncCodes) : Prop := Kept P f ∧ ReturnsError P f ∧ Declares P f c

/-- The interface method has a valid declaration of exactly the codes `S`: it returns an error, and its doc comment lists the codes,
or says `none`. -/
def MethodDeclares (P : Package) (im : IfaceMethod) (S : CodeSet) : Prop :=
  ∃ r init last, im.type.results = some (init ++ [last]) ∧ P.env.implError (P.env.typeOf last.typ) = true ∧
    findErrorDocs im.doc = .ok r ∧ r.param = [] ∧ (r.codes ≠ [] ∨ r.none = true) ∧ S = r.codes

/-- `l` lists the codes satisfying `p` in ascending order, each once. -/
def Lists (l : List GoString) (p : GoString → Prop) : Prop :=
  l.Nodup ∧ Props.Reports.Ascending l ∧ ∀ c, c ∈ l ↔ p c

/-- Different functions are different objects, also different from interface methods, and the imported facts are about other
objects. -/
structure Objects (P : Package) : Prop where
  funcs : P.funcs.Nodup
  distinct : ∀ f ∈ P.funcs, ∀ g ∈ P.funcs, P.env.funcObj f = P.env.funcObj g → f = g
  methods : ∀ d ∈ P.ifaces, ∀ m, .method m ∈ d.elements → ∀ d' ∈ P.ifaces, ∀ m', .method m' ∈ d'.elements →
    P.methodObj m.ident.id = P.methodObj m'.ident.id → d = d' ∧ m = m'
  apart : ∀ f ∈ P.funcs, ∀ d ∈ P.ifaces, ∀ m, .method m ∈ d.elements → P.env.funcObj f ≠ P.methodObj m.ident.id
  imported : ∀ f ∈ P.funcs, P.env.facts.codes (P.env.funcObj f) = none ∧ P.env.facts.ctor (P.env.funcObj f) = none
  importedMethods : ∀ d ∈ P.ifaces, ∀ m, .method m ∈ d.elements → P.env.facts.codes (P.methodObj m.ident.id) = none
  interfaces : ∀ d ∈ P.ifaces, ∀ d' ∈ P.ifaces, d.obj = d'.obj → d = d'
  importedInterfaces : ∀ d ∈ P.ifaces, P.env.facts.interface d.obj = none
  /-- recorded interfaces are maps: one entry per method name -/
  importedTables : ∀ o ms, P.env.facts.interface o = some ms → (ms.map Prod.fst).Nodup

/-- The facts known while bodies are compared with declarations: everything but the codes of the package's own functions. -/
def during (P : Package) (facts : Facts) : Facts :=
  { facts with codes := fun o => if ∃ f ∈ P.funcs, P.env.funcObj f = o then none else facts.codes o }

/-- The declaration `f` of a method is looked at for one of the checks of conversions: a value of some type is converted to an
interface with error methods, the interface has a method of this name, and nothing is declared for the method. -/
def Asked (env : Env) (ss : List Conv.Step) (f : FnId) : Prop :=
  ∃ c, .check c ∈ ss ∧ c.source ≠ c.target ∧ c.source ≠ .untypedNil ∧ ∃ m allowed o, (m, allowed) ∈ c.methods ∧
    ConvSpec.MethodOf env c.source m o ∧ env.facts.codes o = none ∧ ConvSpec.Declares env f m o

/-- The body of the function is looked at when functions are compared with their declarations. -/
def Analysed (P : Package) (facts : Facts) (f : FnId) : Prop :=
  ∃ g c, Compared P g c ∧ Reach (Calls (P.plan (during P facts))) g f

/-- How bodies are understood in a run after which `facts` are known: those looked at when functions are compared with their
declarations with the facts known then, the others, looked at when conversions are checked, with all facts. -/
noncomputable def seen (P : Package) (facts : Facts) (f : FnId) : BodyPlan :=
  open Classical in if Analysed P facts f then P.plan (during P facts) f else P.plan facts f

/-- The checks of conversions in the package. -/
def checks (P : Package) (facts : Facts) : List Conv.Step := Conv.steps (P.at_ facts) P.conv P.top

/-- The body is looked at some time in the run: its function is compared with its declaration, or a method looked at for the check of
a conversion, or called from such a function (directly or indirectly). -/
def LookedAt (P : Package) (facts : Facts) (f : FnId) : Prop :=
  ∃ g, ((∃ c, Compared P g c) ∨ Asked (P.at_ facts) (checks P facts) g) ∧ Reach (Calls (seen P facts)) g f

/-- What was reported for the body of a function, in this order. -/
def reportedIn (out : Outcome) (f : FnId) : List Diag := (out.bodies.filter fun x => x.1 = f).map Prod.snd

end Serum.RunSpec
