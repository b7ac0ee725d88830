import Verif.Report
import Verif.Constant

/-!
# Texts of facts and diagnostics

The `String` methods of the four facts and of code sets, and the diagnostics that list codes.
`ErrorCodes.String` and `ErrorInterface.String` are in `Report.lean`.
-/

namespace Serum
open GoStr

/-- `fmt`'s `%d` for numbers that are not negative. -/
def decimal (n : Nat) : GoString :=
  if n < 10 then [UInt8.ofNat (48 + n)] else decimal (n / 10) ++ [UInt8.ofNat (48 + n % 10)]

/-- set_operations.go:10-12 `CodeSet.String`. -/
def codeSetText (slice : CodeSet → List GoString) (codes : CodeSet) : GoString :=
  b!"set[" ++ join b!" " (slice codes) ++ b!"]"

/-- analyse.go:67-69 `ErrorConstructor.String`. -/
def errorConstructorText (position : Nat) : GoString :=
  b!"ErrorConstructor: {CodeParamPosition:" ++ decimal position ++ b!"}"

/-- tag_error_types.go:38-40 `ErrorCodeField.String`. -/
def errorCodeFieldText (isPrint : Nat → Bool) (f : ErrorCodeField) : GoString :=
  b!"{Name:" ++ quote isPrint f.name ++ b!", Position:" ++ decimal f.position ++ b!"}"

/-- `fmt`'s `%v` for a `*ErrorCodeField`: a nil pointer with a `String` method is shown as `<nil>`. -/
def optionalFieldText (isPrint : Nat → Bool) : Option ErrorCodeField → GoString
  | none => b!"<nil>"
  | some f => errorCodeFieldText isPrint f

/-- tag_error_types.go:33-36 `ErrorType.String`: the text, and the fact, whose slice of codes is sorted in
place. -/
def errorTypeText (isPrint : Nat → Bool) (t : ErrorType) : GoString × ErrorType :=
  let t := { t with codes := sortStrings t.codes }
  (b!"ErrorType{Field:" ++ optionalFieldText isPrint t.field ++ b!", Codes:" ++ join b!" " t.codes ++ b!"}", t)

/-- analyse.go:457-463 `reportIfCodesDoNotMatch`: the diagnostic, where `message` is the text of
`checkIfErrorCodesMatch`. -/
def functionMismatchText (isPrint : Nat → Bool) (name message : GoString) : GoString :=
  b!"function " ++ quote isPrint name ++ b!" has a mismatch of declared and actual error codes: " ++ message

/-- interfaces_collect.go:234-239 `checkEmbeddedInterfaceErrorMethodCodes`: the diagnostic. -/
def embeddedMismatchText (isPrint : Nat → Bool) (method message : GoString) : GoString :=
  b!"embedded interface is not compatible: method " ++ quote isPrint method ++
    b!" has mismatches in declared error codes: " ++ message

/-- interfaces_verify.go:523: the diagnostic. -/
def conversionText (isPrint : Nat → Bool) (interface method : GoString) (codes : List GoString) : GoString :=
  b!"cannot use expression as " ++ quote isPrint interface ++ b!" value: method " ++ quote isPrint method ++
    b!" declares the following error codes which were not part of the interface: " ++ sliceText codes

end Serum
