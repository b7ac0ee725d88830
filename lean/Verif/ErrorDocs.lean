import Verif.CodeSet
import Verif.CodeValid

/-! # Docstring declarations (`analysis/find_error_docs.go`) -/

namespace Serum
open GoStr

/-- The errors `run` can return (find_error_docs.go:92, 101, 105, 109, 114, 122, 124, 132, 144),
identified by the message they carry. -/
inductive DocError
  | needBlankLine        -- "need a blank line after the 'Errors:' block indicator"
  | repeatedIndicator    -- "repeated 'Errors:' block indicator"
  | noDashes             -- "mid block, a line leading with '- ' didnt contain a '--' ..."
  | blankCode            -- "an error code can't be purely whitespace"
  | blankParam           -- "an error code parameter can't be purely whitespace"
  | secondParam          -- "cannot define more than one error code parameter ..."
  | invalidCode          -- "declared error code has invalid format: ..."
deriving DecidableEq, Repr

/-- The four states of the machine (find_error_docs.go:70-75). -/
inductive DocState
  | init | needBlankLine | parsing | done
deriving DecidableEq, Repr

/-- find_error_docs.go:41-46 `findErrorDocsSM`. -/
structure DocSM where
  seen : CodeSet
  state : DocState
  noCodesOk : Bool
  param : GoString
deriving DecidableEq, Repr

namespace DocSM

/-- find_error_docs.go:77-85 `stateInit.step`. -/
def stepInit (sm : DocSM) (line : GoString) : DocSM :=
  if line = b!"Errors:" then { sm with state := .needBlankLine }
  else if hasPrefix line b!"Errors: none" then { sm with noCodesOk := true, state := .done }
  else sm

/-- find_error_docs.go:87-94 `stateNeedBlankLine.step`. -/
def stepNeedBlankLine (sm : DocSM) (line : GoString) : Except DocError DocSM :=
  if line = [] then .ok { sm with state := .parsing } else .error .needBlankLine

/-- find_error_docs.go:104-139, the case of a line starting with `"- "`: slicing `line[2:end]`. -/
def stepEntry (sm : DocSM) (line : GoString) : Except DocError DocSM :=
  match index b!" --" line with
  | none => .error .noDashes
  | some e =>
    if e < 2 then .error .blankCode
    else
      let code := trimSpace ((line.take e).drop 2)
      if code = [] then .error .blankCode
      else if hasPrefix code b!"param:" then
        let param := trimSpace (code.drop 6)
        if param = [] then .error .blankParam
        else if sm.param ≠ [] then .error .secondParam
        else .ok { sm with param := param }
      else if isErrorCodeValid code then .ok { sm with seen := sm.seen.add code }
      else .error .invalidCode

/-- find_error_docs.go:96-140 `stateParsing.step`. -/
def stepParsing (sm : DocSM) (line : GoString) : Except DocError DocSM :=
  if line = [] then .ok { sm with state := .done }
  else if hasPrefix line b!"Errors:" then .error .repeatedIndicator
  else if hasPrefix line b!"- " then stepEntry sm line
  else .ok sm

/-- find_error_docs.go:142-147 `stateDone.step`. -/
def stepDone (sm : DocSM) (line : GoString) : Except DocError DocSM :=
  if hasPrefix line b!"Errors:" then .error .repeatedIndicator else .ok sm

/-- `sm.state.step(&sm, line)`: dynamic dispatch on the current state. -/
def step (sm : DocSM) (line : GoString) : Except DocError DocSM :=
  match sm.state with
  | .init => .ok (sm.stepInit line)
  | .needBlankLine => sm.stepNeedBlankLine line
  | .parsing => sm.stepParsing line
  | .done => sm.stepDone line

/-- find_error_docs.go:54-57: the initial machine. -/
def start : DocSM := { seen := [], state := .init, noCodesOk := false, param := [] }

/-- find_error_docs.go:59-65: the loop over the lines, leaving at the first error. -/
def loop (sm : DocSM) : List GoString → Except DocError DocSM
  | [] => .ok sm
  | line :: lines =>
    match sm.step (trimSpace line) with
    | .error e => .error e
    | .ok sm' => loop sm' lines

end DocSM

/-- What a doc comment declares: the four results of `run` (find_error_docs.go:53-68) when the error
is nil. -/
structure DocResult where
  codes : CodeSet
  param : GoString
  none : Bool
deriving DecidableEq, Repr

/-- The empty result (nil set, "", false): what `findErrorDocs(nil)` gives. -/
def DocResult.empty : DocResult := ⟨[], [], false⟩

/-- find_error_docs.go:53-68 `run`. -/
def runDocs (doc : GoString) : Except DocError DocResult :=
  match DocSM.start.loop (split 10 doc) with
  | .error e => .error e
  | .ok sm => .ok ⟨sm.seen, sm.param, sm.noCodesOk⟩

/-- analyse.go:260-265 `findErrorDocs`; the argument is `comments.Text()` or `none` for a nil
comment group. (`CommentGroup.Text`: `Comments.lean`.) -/
def findErrorDocs : Option GoString → Except DocError DocResult
  | .none => .ok .empty
  | .some doc => runDocs doc

end Serum
