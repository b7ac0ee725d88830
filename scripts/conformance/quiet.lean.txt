import Verif.Testdata.Extras
import Verif.Props.ScopeCheck
open Serum Serum.Check
def rep (name : String) (P : Package) (facts : Facts) (X : Runtime.Extra) (e : Expected) (g : Graph) : IO Unit := do
  let env := P.at_ (RunSpec.during P facts)
  let n := P.env.funcs.length
  let ok := fun f => match (P.env.func f).body with
    | none => false
    | some body => inScope env X f body && e.bodies.all (fun d => d.1 != f)
  let mut fs := (List.range n).filter ok
  for _ in List.range n do
    fs := fs.filter fun f => ((g.at_ f).1 ++ (g.at_ f).2).all fs.contains
  let ds := fs.filterMap fun f => match (find (P.env.funcObj f) e.codes) with
    | some C => if P.funcs.contains f && e.mismatches.all (fun d => d.1 != f) then some (f, C) else none
    | none => none
  let str := fun (c : GoString) => "b!" ++ (String.fromUTF8! ⟨c.toArray⟩).quote
  let cs := ds.map fun d => s!"({d.1}, [{", ".intercalate (d.2.map str)}])"
  IO.println s!"DATA\t{name}\t{fs}\t[{", ".intercalate cs}]"
#eval rep "annotation" Testdata.annotation.package (factsOf Testdata.annotation.result) Testdata.annotation.extra Testdata.annotation.expected Testdata.annotation.graph
#eval rep "dereferenceAssignment" Testdata.dereferenceAssignment.package (factsOf Testdata.dereferenceAssignment.result) Testdata.dereferenceAssignment.extra Testdata.dereferenceAssignment.expected Testdata.dereferenceAssignment.graph
#eval rep "docformat" Testdata.docformat.package (factsOf Testdata.docformat.result) Testdata.docformat.extra Testdata.docformat.expected Testdata.docformat.graph
#eval rep "dotimport" Testdata.dotimport.package (factsOf Testdata.dotimport.result) Testdata.dotimport.extra Testdata.dotimport.expected Testdata.dotimport.graph
#eval rep "dotimportInner1" Testdata.dotimportInner1.package (factsOf Testdata.dotimportInner1.result) Testdata.dotimportInner1.extra Testdata.dotimportInner1.expected Testdata.dotimportInner1.graph
#eval rep "dotimportInner2" Testdata.dotimportInner2.package (factsOf Testdata.dotimportInner2.result) Testdata.dotimportInner2.extra Testdata.dotimportInner2.expected Testdata.dotimportInner2.graph
#eval rep "errorConstructor" Testdata.errorConstructor.package (factsOf Testdata.errorConstructor.result) Testdata.errorConstructor.extra Testdata.errorConstructor.expected Testdata.errorConstructor.graph
#eval rep "errortypes" Testdata.errortypes.package (factsOf Testdata.errortypes.result) Testdata.errortypes.extra Testdata.errortypes.expected Testdata.errortypes.graph
#eval rep "examples" Testdata.examples.package (factsOf Testdata.examples.result) Testdata.examples.extra Testdata.examples.expected Testdata.examples.graph
#eval rep "fieldAssignment" Testdata.fieldAssignment.package (factsOf Testdata.fieldAssignment.result) Testdata.fieldAssignment.extra Testdata.fieldAssignment.expected Testdata.fieldAssignment.graph
#eval rep "funcLiteral" Testdata.funcLiteral.package (factsOf Testdata.funcLiteral.result) Testdata.funcLiteral.extra Testdata.funcLiteral.expected Testdata.funcLiteral.graph
#eval rep "funcLiteralInner" Testdata.funcLiteralInner.package (factsOf Testdata.funcLiteralInner.result) Testdata.funcLiteralInner.extra Testdata.funcLiteralInner.expected Testdata.funcLiteralInner.graph
#eval rep "interfaces" Testdata.interfaces.package (factsOf Testdata.interfaces.result) Testdata.interfaces.extra Testdata.interfaces.expected Testdata.interfaces.graph
#eval rep "interfacesInner1" Testdata.interfacesInner1.package (factsOf Testdata.interfacesInner1.result) Testdata.interfacesInner1.extra Testdata.interfacesInner1.expected Testdata.interfacesInner1.graph
#eval rep "interfacesInner2" Testdata.interfacesInner2.package (factsOf Testdata.interfacesInner2.result) Testdata.interfacesInner2.extra Testdata.interfacesInner2.expected Testdata.interfacesInner2.graph
#eval rep "methods" Testdata.methods.package (factsOf Testdata.methods.result) Testdata.methods.extra Testdata.methods.expected Testdata.methods.graph
#eval rep "multifile" Testdata.multifile.package (factsOf Testdata.multifile.result) Testdata.multifile.extra Testdata.multifile.expected Testdata.multifile.graph
#eval rep "multipackage" Testdata.multipackage.package (factsOf Testdata.multipackage.result) Testdata.multipackage.extra Testdata.multipackage.expected Testdata.multipackage.graph
#eval rep "multipackageInner1" Testdata.multipackageInner1.package (factsOf Testdata.multipackageInner1.result) Testdata.multipackageInner1.extra Testdata.multipackageInner1.expected Testdata.multipackageInner1.graph
#eval rep "multipackageInner2" Testdata.multipackageInner2.package (factsOf Testdata.multipackageInner2.result) Testdata.multipackageInner2.extra Testdata.multipackageInner2.expected Testdata.multipackageInner2.graph
#eval rep "p001" Testdata.p001.package (factsOf Testdata.p001.result) Testdata.p001.extra Testdata.p001.expected Testdata.p001.graph
#eval rep "recursion" Testdata.recursion.package (factsOf Testdata.recursion.result) Testdata.recursion.extra Testdata.recursion.expected Testdata.recursion.graph
#eval rep "typeAssertion" Testdata.typeAssertion.package (factsOf Testdata.typeAssertion.result) Testdata.typeAssertion.extra Testdata.typeAssertion.expected Testdata.typeAssertion.graph
#eval rep "typecast" Testdata.typecast.package (factsOf Testdata.typecast.result) Testdata.typecast.extra Testdata.typecast.expected Testdata.typecast.graph
