import Verif.Spec.ConstantSpec
import Verif.Props.CheckerTexts
import Verif.Props.Messages
import Verif.Messages
import Verif.Props.CodeFormat
import Verif.Props.CodeSets
import Verif.Props.ErrorDocs
import Verif.Props.Annotations
import Verif.Props.Reports
import Verif.Props.Components
import Verif.Props.CallGraph
import Verif.CallGraphCrash
import Verif.AnalyseFuel
import Verif.AnalyseBody
import Verif.Extract
import Verif.Constant
import Verif.Props.Claims
import Verif.Props.Extract
import Verif.Props.Tracking
import Verif.Props.ErrorTypes
import Verif.Props.Bodies
import Verif.AnalyseProgram
import Verif.Simple
import Verif.Props.Calls
import Verif.Props.Fields
import Verif.Props.Interfaces
import Verif.Props.Conversions
import Verif.Props.Soundness
import Verif.Props.SoundnessLimits
import Verif.Props.Run
import Verif.Props.RunReports
import Verif.Props.RunExports
import Verif.Props.RunExample
import Verif.Props.RunOrder
import Verif.Props.RunOrderLimits
import Verif.Props.RunScope
import Verif.Props.FieldOrder
import Verif.Props.Crash
import Verif.CallGraphTwoCrash
import Verif.BodyTargets
import Verif.Props.RunCrash
import Verif.Props.RunCodes
import Verif.Session
import Verif.Spec.SessionSpec
import Verif.Props.Session
import Verif.Spec.Linked
import Verif.Props.Linked
import Verif.LinkedScope
import Verif.Props.LinkedExample
import Verif.Props.LinkedLimits
import Verif.Spec.Machine
import Verif.MachineInv
import Verif.MachineSteps
import Verif.MachineLinked
import Verif.Props.Machine
import Verif.Props.Texts
import Verif.Props.Space
import Verif.Props.Literals
import Verif.Props.Corrections
import Verif.Edits
import Verif.Props.Edits
import Verif.Props.SessionSame
import Verif.Dependencies
import Verif.Props.Dependencies
import Verif.Props.CommentsRun
import Verif.Props.TypeReports
import Verif.Props.TypeReportsRun
import Verif.Rearrange
import Verif.RearrangeLists
import Verif.Props.Rearrange
import Verif.Props.RearrangeExample
import Verif.Props.Checker
import Verif.Props.Adoption
import Verif.Props.CommentMap
import Verif.Testdata.Annotation
import Verif.Testdata.DereferenceAssignment
import Verif.Testdata.Docformat
import Verif.Testdata.Dotimport
import Verif.Testdata.DotimportInner1
import Verif.Testdata.DotimportInner2
import Verif.Testdata.ErrorConstructor
import Verif.Testdata.Errortypes
import Verif.Testdata.Examples
import Verif.Testdata.FieldAssignment
import Verif.Testdata.FuncLiteral
import Verif.Testdata.FuncLiteralInner
import Verif.Testdata.Interfaces
import Verif.Testdata.InterfacesInner1
import Verif.Testdata.InterfacesInner2
import Verif.Testdata.Methods
import Verif.Testdata.Multifile
import Verif.Testdata.Multipackage
import Verif.Testdata.MultipackageInner1
import Verif.Testdata.MultipackageInner2
import Verif.Spec.BodyReportSpec
import Verif.BodyReports
import Verif.Props.BodyReports
import Verif.Testdata.P001
import Verif.Testdata.Recursion
import Verif.Testdata.Support
import Verif.Testdata.TypeAssertion
import Verif.Testdata.Typecast
import Verif.BodyCheck
import Verif.Props.BodyCheck
import Verif.Testdata.Bodies
import Verif.ScopeCheck
import Verif.Props.ScopeCheck
import Verif.Testdata.Extras
import Verif.Testdata.Sound
import Verif.Spec.Renaming
import Verif.Rename
import Verif.RenameBody
import Verif.RenameTypes
import Verif.RenameSearch
import Verif.RenameWalk
import Verif.RunObjs
import Verif.Props.Renaming
import Verif.ConvertsFacts
import Verif.Props.DependencyConversions
import Verif.Removal
import Verif.Props.Removal
import Verif.Props.RemovalSuccess
import Verif.Spec.ImportSpec
import Verif.Frame
import Verif.Props.Imports
import Verif.Props.ImportsSession
import Verif.Props.Part
import Verif.Props.PartOrder
import Verif.Spec.BodyCodesSpec
import Verif.BodyCodes
import Verif.Props.BodyCodes
