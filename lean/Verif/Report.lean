import Verif.CodeSet

/-! # Comparing codes and rendering them (analysis/analyse.go:59-63, 436-462) -/

namespace Serum
open GoStr

/-- Go's `<=` on strings: bytewise lexicographic. -/
def strLe : GoString → GoString → Bool
  | [], _ => true
  | _ :: _, [] => false
  | a :: as, b :: bs => a < b || (a == b && strLe as bs)

/-- Insertion into a sorted slice. -/
def insertSorted (x : GoString) : List GoString → List GoString
  | [] => [x]
  | y :: ys => if strLe x y then x :: y :: ys else y :: insertSorted x ys

/-- `sort.Strings`.  (Go uses another algorithm; `Props/Reports.lean` proves that every correct
sorting function computes the same result.) -/
def sortStrings (l : List GoString) : List GoString := l.foldr insertSorted []

/-- `fmt.Sprintf("%v", slice)` for a string slice. -/
def sliceText (l : List GoString) : GoString := b!"[" ++ join b!" " l ++ b!"]"

/-- The iteration orders used by one run of `checkIfErrorCodesMatch`: two `Difference` loops and two
`Slice` loops over Go maps. -/
structure MatchOrders where
  diff₁ : CodeSet → List GoString
  slice₁ : CodeSet → List GoString
  diff₂ : CodeSet → List GoString
  slice₂ : CodeSet → List GoString

/-- analyse.go:436-454 `checkIfErrorCodesMatch`. -/
def checkIfErrorCodesMatch (o : MatchOrders) (found claimed : CodeSet) : Bool × GoString :=
  let missing := o.slice₁ (CodeSet.diff (o.diff₁ found) claimed)
  let unused := o.slice₂ (CodeSet.diff (o.diff₂ claimed) found)
  let m₁ := if missing.length > 0 then [b!"missing codes: " ++ sliceText (sortStrings missing)] else []
  let m₂ := if unused.length > 0 then [b!"unused codes: " ++ sliceText (sortStrings unused)] else []
  let msgs := m₁ ++ m₂
  (msgs.length == 0, join b!" " msgs)

/-- analyse.go:59-63 `ErrorCodes.String`, the text of an exported fact. -/
def errorCodesText (slice : CodeSet → List GoString) (codes : CodeSet) : GoString :=
  b!"ErrorCodes: " ++ join b!" " (sortStrings (slice codes))

/-- interfaces_collect.go:28-35 `ErrorInterface.String`; the argument is the set of method names. -/
def errorInterfaceText (slice : CodeSet → List GoString) (methods : CodeSet) : GoString :=
  b!"ErrorInterface: " ++ join b!" " (sortStrings (slice methods))

/-- interfaces_verify.go:518-525: the codes listed in the report for an unacceptable implementation,
or `none` if nothing is reported. -/
def unexpectedCodes (diff slice : CodeSet → List GoString) (found interface : CodeSet) :
    Option (List GoString) :=
  let unexpected := CodeSet.diff (diff found) interface
  if unexpected.length > 0 then some (sortStrings (slice unexpected)) else none

end Serum
