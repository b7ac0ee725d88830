import Verif.Run
import Verif.FactText

/-!
# The messages as they are shown (`pass.Reportf`, `pass.ReportRangef`)

A diagnostic is shown as a position and a text.  The text is made from a format, here verbatim as in the source, and the values inserted
into it.  An error that is reported by "%v" (annotation.go:91, tag_error_types.go:74, 250, extract_error_code.go:154,
interfaces_collect.go:108) is shown as the text of its own format, so that is what is given here.
-/

namespace Serum
open GoStr

/-- A format and what is inserted for its verbs. -/
structure Message where
  format : GoString
  args : List GoString
deriving DecidableEq, Repr

/-- `fmt.Sprintf` for string arguments and the verbs `%q`, `%s`, `%v` (the last also for values that are shown as the given text), and `%T`
for pointers to types of the package `ast`, of which the name is given. (The formats used have no other verbs and as many verbs as arguments:
`Props.Messages.arguments`.) -/
def sprintf (isPrint : Nat → Bool) : GoString → List GoString → GoString
  | 37 :: 113 :: f, a :: as => quote isPrint a ++ sprintf isPrint f as
  | 37 :: 115 :: f, a :: as => a ++ sprintf isPrint f as
  | 37 :: 118 :: f, a :: as => a ++ sprintf isPrint f as
  | 37 :: 84 :: f, a :: as => b!"*ast." ++ a ++ sprintf isPrint f as
  | b :: f, as => b :: sprintf isPrint f as
  | [], _ => []

/-- The text of a message. -/
def Message.text (isPrint : Nat → Bool) (m : Message) : GoString := sprintf isPrint m.format m.args

/-- analyse.go:208 `checkErrorCodeValid`: the error. -/
def invalidCodeText : GoString := b!"should match [a-zA-Z][a-zA-Z0-9\\-]*[a-zA-Z0-9]"

/-- find_error_docs.go:92-144: the text of the error. -/
def DocError.text : DocError → GoString
  | .needBlankLine => b!"need a blank line after the 'Errors:' block indicator"
  | .repeatedIndicator => b!"repeated 'Errors:' block indicator"
  | .noDashes => b!"mid block, a line leading with '- ' didnt contain a '--' to mark the end of the code name"
  | .blankCode => b!"an error code can't be purely whitespace"
  | .blankParam => b!"an error code parameter can't be purely whitespace"
  | .secondParam => b!"cannot define more than one error code parameter (found multiple 'param:' inidicators)"
  | .invalidCode => b!"declared error code has invalid format: " ++ invalidCodeText

/-- annotation.go:61, 66, 87, 110, 130, 134; `annotationIndicatorReturnStmt` is "Error Codes" (annotation.go:11). -/
def AnnDiag.message : AnnDiag → Message
  | .expectedOp => ⟨b!"error in annotation: expected '=', '+=', '-=', '+code', or '-code' after '%s' indicator", [b!"Error Codes"]⟩
  | .multiple => ⟨b!"found multiple annotations for the same return statement: only one is allowed", []⟩
  | .invalidCode => ⟨b!"invalid error code in annotation: %v", [invalidCodeText]⟩
  | .badSign => ⟨b!"invalid error code in annotation: code has to start with '+' or '-'", []⟩

/-- extract_error_code.go:180, 186, 191: the error; `strconv.Unquote` only ever answers `strconv.ErrSyntax`. -/
def ConstError.message : ConstError → Message
  | .notString => ⟨b!"error code has to be of type string", []⟩
  | .unquoting => ⟨b!"problem unquoting string constant value: %v", [b!"invalid syntax"]⟩
  | .format => ⟨b!"error code has invalid format: %v", [invalidCodeText]⟩

/-- What is inserted into messages and is not part of the model of the analysis. -/
structure Names where
  /-- `types.Object.Name()` -/
  object : Object → GoString
  /-- the type of a node: the name of a type of package `ast` (the types of expressions are pointers to them) -/
  kind : NodeId → GoString

/-- The messages about function bodies, at the lines given for `Msg`; `declared` tells function declarations from function literals
(`function.funcDecl != nil`, analyse.go:735, 786), and `kind` is the type of the node. -/
def Msg.message (names : Names) (declared : Bool) (at_ : NodeId) : Msg → Message
  | .annotation d => d.message
  | .notErrorType => ⟨b!"expression %T does not implement valid error type", [b!"UnaryExpr"]⟩
  | .typeSwitchUnsupported => ⟨b!"type assertion switch is not supported in error code analysis", []⟩
  | .typeAssertUnsupported => ⟨b!"type assertion is not supported in error code analysis", []⟩
  | .indexUnsupported => ⟨b!"expression is not supported in error code analysis", []⟩
  | .exprUnsupported => ⟨b!"expression %T is not supported in error code analysis", [names.kind at_]⟩
  | .dotImportUndeclared f => ⟨b!"function %q in dot-imported package does not declare error codes", [f]⟩
  | .foreignUndeclared f p => ⟨b!"function %q in package %q does not declare error codes", [f, p]⟩
  | .unnamedFunction => ⟨b!"invalid error source: definition of the unnamed function could not be found", []⟩
  | .calleeUndeclared => ⟨b!"called function does not declare error codes", []⟩
  | .lambdaOutOfScope =>
    if declared then ⟨b!"error returning function literal may not be a parameter, receiver or global variable", []⟩
    else ⟨b!"error returning function literal may not be a parameter, global variable or other variables declared outside of the function body", []⟩
  | .lambdaDestructured v => ⟨b!"unsupported: assigning result of function call to variable %q is not allowed", [v]⟩
  | .lambdaUnsupported v => ⟨b!"unsupported: assignment to variable %q can only be an identifier or function literal", [v]⟩
  | .errorOutOfScope =>
    if declared then ⟨b!"returned error may not be a parameter, receiver or global variable", []⟩
    else ⟨b!"returned error may not be a parameter, global variable or other variables declared outside of the function body", []⟩
  | .nonLastResult => ⟨b!"unsupported: tracking error codes for function call with error as non-last return argument", []⟩
  | .noErrorCode => ⟨b!"expression does not define an error code", []⟩
  | .invalidErrorType => ⟨b!"expression is not a valid error: error types must return constant error codes or a single field", []⟩
  | .noInitialiser => ⟨b!"could not find initialiser for error code field in contructor expression", []⟩
  | .constructorAsValue o => ⟨b!"unsupported use of error constructor %q", [names.object o]⟩
  | .badConstant e => e.message
  | .notConstant => ⟨b!"error code has to be constant value or error code parameter", []⟩
  | .paramNotDeclared p => ⟨b!"require an error code parameter declaration to use %q as an error code", [p]⟩
  | .paramOutOfScope => ⟨b!"error code parameter may not be assigned an other parameter, receiver or global variable", []⟩
  | .paramDestructured p => ⟨b!"unsupported: assigning result of function call to error code parameter %q is not allowed", [p]⟩

/-- The messages about error types, at the lines given for `TagMsg`. The method in "function %q should always …" was found by its name `Code`
(tag_error_types.go:132-155). -/
def TagMsg.message (names : Names) (at_ : NodeId) : TagMsg → Message
  | .invalidType => ⟨b!"type is an invalid error type", []⟩
  | .noCodeMethod => ⟨b!"found no method \"Code() string\"", []⟩
  | .noCodes o => ⟨b!"type %q is an invalid error type: could not find any error codes", [names.object o]⟩
  | .notField f =>
    ⟨b!"returned field %q is not a valid error code field (promoted fields are not supported currently, but might be added in the future)", [f]⟩
  | .badConstant e => e.message
  | .secondField f p => ⟨b!"only single field allowed: cannot return field %q because field %q was returned previously", [f, p]⟩
  | .notConstantOrField => ⟨b!"function %q should always return a string constant or a single field", [b!"Code"]⟩
  | .outOfScope => ⟨b!"error code variable may not be a parameter, receiver or global variable", []⟩
  | .destructured v => ⟨b!"unsupported: assigning result of function call to variable %q is not allowed", [v]⟩
  | .assignment m => m.message names true at_

/-- The messages about declarations of functions, at the lines given for `ClaimMsg`. -/
def ClaimMsg.message : ClaimMsg → Message
  | .errorNotLast => ⟨b!"error should be returned as the last argument", []⟩
  | .oddDocstring f e => ⟨b!"function %q has odd docstring: %s", [f, e.text]⟩
  | .paramNotString p => ⟨b!"error code parameter %q has to be of type string", [p]⟩
  | .paramNotFound p => ⟨b!"declared error code parameter %q could not be found in parameter list", [p]⟩
  | .exportedUndeclared f => ⟨b!"function %q is exported, but does not declare any error codes", [f]⟩

/-- The messages about interfaces, at the lines given for `IfaceMsg`. -/
def IfaceMsg.message : IfaceMsg → Message
  | .claim m => m.message
  | .oddDocstring m e => ⟨b!"interface method %q has odd docstring: %s", [m, e.text]⟩
  | .constructor => ⟨b!"declaration of error constructors in interfaces is currently not supported", []⟩
  | .undeclared m => ⟨b!"interface method %q does not declare any error codes", [m]⟩
  | .incompatible m text => ⟨b!"embedded interface is not compatible: method %q has mismatches in declared error codes: %s", [m, text]⟩

/-- analyse.go:460. -/
def mismatchMessage (function text : GoString) : Message :=
  ⟨b!"function %q has a mismatch of declared and actual error codes: %s", [function, text]⟩

/-- interfaces_verify.go:524; a report without named interface would have been a panic (line 521). -/
def Conv.Report.message (names : Names) (r : Conv.Report) : Message :=
  ⟨b!"cannot use expression as %q value: method %q declares the following error codes which were not part of the interface: %v",
    [(r.interface.map names.object).getD [], r.method, sliceText r.codes]⟩

/-- All diagnostics of a run: where, and what (in the order of the phases). -/
def Outcome.messages (P : Package) (names : Names) (out : Outcome) : List (NodeId × Message) :=
  out.tags.map (fun d => (d.at_, d.msg.message names d.at_)) ++
  out.ifaces.map (fun d => (d.at_, d.msg.message)) ++
  (out.signatures ++ out.claims).map (fun d => (d.at_, d.msg.message)) ++
  out.bodies.map (fun d => (d.2.at_, d.2.msg.message names (P.env.func d.1).declName.isSome d.2.at_)) ++
  out.mismatches.map (fun d => (P.decls.pos d.1, mismatchMessage (P.decls.name d.1) d.2)) ++
  out.conversions.map (fun d => (d.at_, d.message names))

/-- What the user sees. -/
def Outcome.shown (P : Package) (names : Names) (out : Outcome) : List (NodeId × GoString) :=
  (out.messages P names).map fun m => (m.1, m.2.text P.env.isPrint)

end Serum
