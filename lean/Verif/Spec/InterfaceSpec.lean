import Verif.Interfaces
import Verif.Props.Reports

/-!
# Specification: the error methods of interfaces

Which methods with which codes an interface has, from its declaration alone: the ones documented in
itself, and those of the interfaces it embeds.
-/

namespace Serum.IfaceSpec

/-- `d` itself contains a method `m` which returns an error and whose documentation declares exactly the
codes `S` (possibly explicitly none). -/
def Own (env : Env) (d : IfaceDecl) (m : GoString) (S : CodeSet) : Prop :=
  ∃ im r results last, IfaceElement.method im ∈ d.elements ∧ im.ident.name = m ∧
    im.type.results = some results ∧ results.getLast? = some last ∧ env.implError (env.typeOf last.typ) = true ∧
    findErrorDocs im.doc = .ok r ∧ r.param = [] ∧ (r.codes ≠ [] ∨ r.none = true) ∧ S = r.codes

/-- The type behind an expression has been recorded, by the analysis of another package, as an interface
with methods `ms`. -/
def Recorded (env : Env) (id : NodeId) (ms : List (GoString × CodeSet)) : Prop :=
  ∃ o, getNamedType (env.typeOf id) = some o ∧ env.facts.interface o = some ms

/-- The interface `d` has an error method `m` with codes `S`. -/
inductive Has (env : Env) (decls : List IfaceDecl) : IfaceDecl → GoString → CodeSet → Prop where
  | own {d m S} : Own env d m S → Has env decls d m S
  | embeds {d d' id m S} : .embedded (.name id d'.name) ∈ d.elements → d' ∈ decls →
      Has env decls d' m S → Has env decls d m S
  | imports {d id ms m S} : .embedded (.qualified id) ∈ d.elements → Recorded env id ms → (m, S) ∈ ms →
      Has env decls d m S

/-- The same codes. -/
def Same (S T : CodeSet) : Prop := ∀ c, c ∈ S ↔ c ∈ T

/-- Two equally named error methods of one interface have different codes. -/
def Conflict (env : Env) (decls : List IfaceDecl) : Prop :=
  ∃ d ∈ decls, ∃ m S T, Has env decls d m S ∧ Has env decls d m T ∧ ¬ Same S T

/-- The embedded interfaces of an interface, in the order of the source. -/
def embeds (es : List IfaceElement) : List Embedded :=
  es.filterMap fun | .embedded e => some e | .method _ => none

/-- An embedded interface has an error method `m` with codes `S`. -/
def Contributes (env : Env) (decls : List IfaceDecl) (e : Embedded) (m : GoString) (S : CodeSet) : Prop :=
  match e with
  | .name _ n => ∃ d ∈ decls, d.name = n ∧ Has env decls d m S
  | .qualified id => ∃ ms, Recorded env id ms ∧ (m, S) ∈ ms

/-- What is recorded for `m`, when `d` embeds `es`: its own declaration if there is one; otherwise what is recorded for the first
embedded interface which has the method. -/
inductive TakesFrom (env : Env) (decls : List IfaceDecl) : IfaceDecl → List Embedded → GoString → CodeSet → Prop where
  | own {d es m S} : Own env d m S → TakesFrom env decls d es m S
  | embeds {d d' es pre post id m S} : (∀ T, ¬ Own env d m T) → es = pre ++ .name id d'.name :: post →
      (∀ e ∈ pre, ∀ T, ¬ Contributes env decls e m T) → d' ∈ decls → TakesFrom env decls d' (embeds d'.elements) m S →
      TakesFrom env decls d es m S
  | imports {d es pre post id ms m S} : (∀ T, ¬ Own env d m T) → es = pre ++ .qualified id :: post →
      (∀ e ∈ pre, ∀ T, ¬ Contributes env decls e m T) → Recorded env id ms → (m, S) ∈ ms → TakesFrom env decls d es m S

/-- What is recorded for the method `m` of `d`. -/
def Takes (env : Env) (decls : List IfaceDecl) (d : IfaceDecl) (m : GoString) (S : CodeSet) : Prop :=
  TakesFrom env decls d (embeds d.elements) m S

/-- What is recorded for the method `m` of an embedded interface. -/
def Gives (env : Env) (decls : List IfaceDecl) (e : Embedded) (m : GoString) (S : CodeSet) : Prop :=
  match e with
  | .name _ n => ∃ d ∈ decls, d.name = n ∧ Takes env decls d m S
  | .qualified id => ∃ ms, Recorded env id ms ∧ (m, S) ∈ ms

/-- `x` reports that the interface `e`, embedded in `d` after `pre`, has other codes for a method than `d` itself and `pre`; it lists
the differences. -/
def ClashOf (env : Env) (decls : List IfaceDecl) (d : IfaceDecl) (pre : List Embedded) (e : Embedded) (x : IfaceDiag) : Prop :=
  ∃ m S T missing unused, TakesFrom env decls d pre m S ∧ Gives env decls e m T ∧ ¬ Same S T ∧
    Props.Reports.ListsDifference missing S T ∧ Props.Reports.ListsDifference unused T S ∧
    x = ⟨e.id, .incompatible m (Props.Reports.mismatchText missing unused)⟩

/-- `x` reports that `d` embeds an interface that does not fit. -/
def ClashIn (env : Env) (decls : List IfaceDecl) (d : IfaceDecl) (x : IfaceDiag) : Prop :=
  ∃ pre e post, embeds d.elements = pre ++ e :: post ∧ ClashOf env decls d pre e x

open Classical in
/-- How often `x` describes an interface of `es` that does not fit, when `d` embeds `pre` and then `es`. -/
noncomputable def clashesFrom (env : Env) (decls : List IfaceDecl) (d : IfaceDecl) : List Embedded → List Embedded → IfaceDiag → Nat
  | _, [], _ => 0
  | pre, e :: es, x => (if ClashOf env decls d pre e x then 1 else 0) + clashesFrom env decls d (pre ++ [e]) es x

/-- How often `x` describes an interface embedded in `d` that does not fit. -/
noncomputable def clashes (env : Env) (decls : List IfaceDecl) (d : IfaceDecl) (x : IfaceDiag) : Nat :=
  clashesFrom env decls d [] (embeds d.elements) x

/-- `x` reports a method of an interface (of type `typ`) that cannot be recorded: an error result that is not the last one; or an
error-returning method whose doc comment is malformed, or declares an error code parameter, or declares nothing (`Cause` methods of
error types may). -/
def Unrecordable (env : Env) (implCause : GoType → Bool) (typ : GoType) (im : IfaceMethod) (x : IfaceDiag) : Prop :=
  let returnsError := ∃ init last, im.type.results = some (init ++ [last]) ∧ env.implError (env.typeOf last.typ) = true
  (¬ returnsError ∧ ∃ results r, im.type.results = some results ∧ r ∈ results ∧ env.implError (env.typeOf r.typ) = true ∧
    x = ⟨r.typ, .claim .errorNotLast⟩) ∨
  (returnsError ∧
    ((∃ e, findErrorDocs im.doc = .error e ∧ x = ⟨im.element, .oddDocstring im.ident.name e⟩) ∨
     ∃ r, findErrorDocs im.doc = .ok r ∧
      ((r.param ≠ [] ∧ x = ⟨im.element, .constructor⟩) ∨
       (r.param = [] ∧ r.codes = [] ∧ r.none = false ∧ ¬ (im.ident.name = b!"Cause" ∧ implCause typ = true) ∧
        x = ⟨im.element, .undeclared im.ident.name⟩))))

end Serum.IfaceSpec
