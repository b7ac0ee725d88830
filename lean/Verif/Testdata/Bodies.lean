import Verif.Props.BodyCheck
import Verif.Testdata.Annotation
import Verif.Testdata.DereferenceAssignment
import Verif.Testdata.Docformat
import Verif.Testdata.Dotimport
import Verif.Testdata.DotimportInner1
import Verif.Testdata.DotimportInner2
import Verif.Testdata.ErrorConstructor
import Verif.Testdata.Errortypes
import Verif.Testdata.Examples
import Verif.Testdata.FieldAssignment
import Verif.Testdata.FuncLiteral
import Verif.Testdata.FuncLiteralInner
import Verif.Testdata.Interfaces
import Verif.Testdata.InterfacesInner1
import Verif.Testdata.InterfacesInner2
import Verif.Testdata.Methods
import Verif.Testdata.Multifile
import Verif.Testdata.Multipackage
import Verif.Testdata.MultipackageInner1
import Verif.Testdata.MultipackageInner2
import Verif.Testdata.P001
import Verif.Testdata.Recursion
import Verif.Testdata.TypeAssertion
import Verif.Testdata.Typecast

/-!
# C58, for the packages in analysis/testdata

For every package in analysis/testdata, what is reported about bodies is exactly what C58 says, in every run: the hypotheses about syntax
and types are decided by evaluating `Check.bodiesFine`.
-/

set_option maxRecDepth 100000

namespace Serum.Testdata
open Serum

theorem annotation.bodiesFine : Check.bodiesFine annotation.package (Check.factsOf annotation.result) = true := by decide +kernel

theorem annotation.bodiesExact : Check.BodiesExact annotation.package true :=
  Check.bodiesExact annotation.checked annotation.imports annotation.bodiesFine fun _ _ => rfl

theorem dereferenceAssignment.bodiesFine : Check.bodiesFine dereferenceAssignment.package (Check.factsOf dereferenceAssignment.result) = true := by decide +kernel

theorem dereferenceAssignment.bodiesExact : Check.BodiesExact dereferenceAssignment.package true :=
  Check.bodiesExact dereferenceAssignment.checked dereferenceAssignment.imports dereferenceAssignment.bodiesFine fun _ _ => rfl

theorem docformat.bodiesFine : Check.bodiesFine docformat.package (Check.factsOf docformat.result) = true := by decide +kernel

theorem docformat.bodiesExact : Check.BodiesExact docformat.package true :=
  Check.bodiesExact docformat.checked docformat.imports docformat.bodiesFine fun _ _ => rfl

theorem dotimport.bodiesFine : Check.bodiesFine dotimport.package (Check.factsOf dotimport.result) = true := by decide +kernel

theorem dotimport.bodiesExact : Check.BodiesExact dotimport.package true :=
  Check.bodiesExact dotimport.checked dotimport.imports dotimport.bodiesFine fun _ _ => rfl

theorem dotimportInner1.bodiesFine : Check.bodiesFine dotimportInner1.package (Check.factsOf dotimportInner1.result) = true := by decide +kernel

theorem dotimportInner1.bodiesExact : Check.BodiesExact dotimportInner1.package true :=
  Check.bodiesExact dotimportInner1.checked dotimportInner1.imports dotimportInner1.bodiesFine fun _ _ => rfl

theorem dotimportInner2.bodiesFine : Check.bodiesFine dotimportInner2.package (Check.factsOf dotimportInner2.result) = true := by decide +kernel

theorem dotimportInner2.bodiesExact : Check.BodiesExact dotimportInner2.package true :=
  Check.bodiesExact dotimportInner2.checked dotimportInner2.imports dotimportInner2.bodiesFine fun _ _ => rfl

theorem errorConstructor.bodiesFine : Check.bodiesFine errorConstructor.package (Check.factsOf errorConstructor.result) = true := by decide +kernel

theorem errorConstructor.bodiesExact : Check.BodiesExact errorConstructor.package true :=
  Check.bodiesExact errorConstructor.checked errorConstructor.imports errorConstructor.bodiesFine fun _ _ => rfl

theorem errortypes.bodiesFine : Check.bodiesFine errortypes.package (Check.factsOf errortypes.result) = true := by decide +kernel

theorem errortypes.bodiesExact : Check.BodiesExact errortypes.package true :=
  Check.bodiesExact errortypes.checked errortypes.imports errortypes.bodiesFine fun _ _ => rfl

theorem examples.bodiesFine : Check.bodiesFine examples.package (Check.factsOf examples.result) = true := by decide +kernel

theorem examples.bodiesExact : Check.BodiesExact examples.package true :=
  Check.bodiesExact examples.checked examples.imports examples.bodiesFine fun _ _ => rfl

theorem fieldAssignment.bodiesFine : Check.bodiesFine fieldAssignment.package (Check.factsOf fieldAssignment.result) = true := by decide +kernel

theorem fieldAssignment.bodiesExact : Check.BodiesExact fieldAssignment.package true :=
  Check.bodiesExact fieldAssignment.checked fieldAssignment.imports fieldAssignment.bodiesFine fun _ _ => rfl

theorem funcLiteral.bodiesFine : Check.bodiesFine funcLiteral.package (Check.factsOf funcLiteral.result) = true := by decide +kernel

theorem funcLiteral.bodiesExact : Check.BodiesExact funcLiteral.package true :=
  Check.bodiesExact funcLiteral.checked funcLiteral.imports funcLiteral.bodiesFine fun _ _ => rfl

theorem funcLiteralInner.bodiesFine : Check.bodiesFine funcLiteralInner.package (Check.factsOf funcLiteralInner.result) = true := by decide +kernel

theorem funcLiteralInner.bodiesExact : Check.BodiesExact funcLiteralInner.package true :=
  Check.bodiesExact funcLiteralInner.checked funcLiteralInner.imports funcLiteralInner.bodiesFine fun _ _ => rfl

theorem interfaces.bodiesFine : Check.bodiesFine interfaces.package (Check.factsOf interfaces.result) = true := by decide +kernel

theorem interfaces.bodiesExact : Check.BodiesExact interfaces.package true :=
  Check.bodiesExact interfaces.checked interfaces.imports interfaces.bodiesFine fun _ _ => rfl

theorem interfacesInner1.bodiesFine : Check.bodiesFine interfacesInner1.package (Check.factsOf interfacesInner1.result) = true := by decide +kernel

theorem interfacesInner1.bodiesExact : Check.BodiesExact interfacesInner1.package true :=
  Check.bodiesExact interfacesInner1.checked interfacesInner1.imports interfacesInner1.bodiesFine fun _ _ => rfl

theorem interfacesInner2.bodiesFine : Check.bodiesFine interfacesInner2.package (Check.factsOf interfacesInner2.result) = true := by decide +kernel

theorem interfacesInner2.bodiesExact : Check.BodiesExact interfacesInner2.package true :=
  Check.bodiesExact interfacesInner2.checked interfacesInner2.imports interfacesInner2.bodiesFine fun _ _ => rfl

theorem methods.bodiesFine : Check.bodiesFine methods.package (Check.factsOf methods.result) = true := by decide +kernel

theorem methods.bodiesExact : Check.BodiesExact methods.package true :=
  Check.bodiesExact methods.checked methods.imports methods.bodiesFine fun _ _ => rfl

theorem multifile.bodiesFine : Check.bodiesFine multifile.package (Check.factsOf multifile.result) = true := by decide +kernel

theorem multifile.bodiesExact : Check.BodiesExact multifile.package true :=
  Check.bodiesExact multifile.checked multifile.imports multifile.bodiesFine fun _ _ => rfl

theorem multipackage.bodiesFine : Check.bodiesFine multipackage.package (Check.factsOf multipackage.result) = true := by decide +kernel

theorem multipackage.bodiesExact : Check.BodiesExact multipackage.package true :=
  Check.bodiesExact multipackage.checked multipackage.imports multipackage.bodiesFine fun _ _ => rfl

theorem multipackageInner1.bodiesFine : Check.bodiesFine multipackageInner1.package (Check.factsOf multipackageInner1.result) = true := by decide +kernel

theorem multipackageInner1.bodiesExact : Check.BodiesExact multipackageInner1.package true :=
  Check.bodiesExact multipackageInner1.checked multipackageInner1.imports multipackageInner1.bodiesFine fun _ _ => rfl

theorem multipackageInner2.bodiesFine : Check.bodiesFine multipackageInner2.package (Check.factsOf multipackageInner2.result) = true := by decide +kernel

theorem multipackageInner2.bodiesExact : Check.BodiesExact multipackageInner2.package true :=
  Check.bodiesExact multipackageInner2.checked multipackageInner2.imports multipackageInner2.bodiesFine fun _ _ => rfl

theorem p001.bodiesFine : Check.bodiesFine p001.package (Check.factsOf p001.result) = true := by decide +kernel

theorem p001.bodiesExact : Check.BodiesExact p001.package true :=
  Check.bodiesExact p001.checked p001.imports p001.bodiesFine fun _ _ => rfl

theorem recursion.bodiesFine : Check.bodiesFine recursion.package (Check.factsOf recursion.result) = true := by decide +kernel

theorem recursion.bodiesExact : Check.BodiesExact recursion.package true :=
  Check.bodiesExact recursion.checked recursion.imports recursion.bodiesFine fun _ _ => rfl

theorem typeAssertion.bodiesFine : Check.bodiesFine typeAssertion.package (Check.factsOf typeAssertion.result) = true := by decide +kernel

theorem typeAssertion.bodiesExact : Check.BodiesExact typeAssertion.package true :=
  Check.bodiesExact typeAssertion.checked typeAssertion.imports typeAssertion.bodiesFine fun _ _ => rfl

theorem typecast.bodiesFine : Check.bodiesFine typecast.package (Check.factsOf typecast.result) = true := by decide +kernel

theorem typecast.bodiesExact : Check.BodiesExact typecast.package true :=
  Check.bodiesExact typecast.checked typecast.imports typecast.bodiesFine fun _ _ => rfl

end Serum.Testdata
