import Verif.CodeSet
import Verif.CodeValid

/-! # Return statement annotations (`analysis/annotation.go`) -/

namespace Serum
open GoStr

/-- The diagnostics of annotation.go, identified by their message. -/
inductive AnnDiag
  | expectedOp     -- annotation.go:62, 86: "error in annotation: expected '=', '+=', ... "
  | multiple       -- annotation.go:67: "found multiple annotations for the same return statement ..."
  | invalidCode    -- annotation.go:111, 134: "invalid error code in annotation: should match ..."
  | badSign        -- annotation.go:130: "... code has to start with '+' or '-'"
deriving DecidableEq, Repr

/-- annotation.go:14-19 `annotationReturnStmt`. -/
structure Annotation where
  shouldOverwrite : Bool
  overwrite : CodeSet
  addCodes : CodeSet
  subCodes : CodeSet
deriving DecidableEq, Repr

/-- annotation.go:70: `&annotationReturnStmt{false, Set(), Set(), Set()}`. -/
def Annotation.blank : Annotation := ⟨false, [], [], []⟩

/-- annotation.go:107-114: the loop over the comma separated pieces. -/
def extractCodesLoop (result : CodeSet) : List GoString → Except AnnDiag CodeSet
  | [] => .ok result
  | code :: codes =>
    let code := trimSpace code
    if isErrorCodeValid code then extractCodesLoop (result.add code) codes
    else .error .invalidCode

/-- annotation.go:100-117 `extractCodesFromStringAnnotation`. -/
def extractCodes (annotation : GoString) : Except AnnDiag CodeSet :=
  if trimSpace annotation = [] then .ok []
  else extractCodesLoop [] (split 44 annotation)

/-- annotation.go:123-143: the loop over the space separated pieces. (On error the Go code leaves
`result` partially filled, but its caller then returns nil.) -/
def extractModsLoop (result : Annotation) : List GoString → Except AnnDiag Annotation
  | [] => .ok result
  | code :: codes =>
    match trimSpace code with
    | [] => extractModsLoop result codes
    | sign :: name =>
      if sign ≠ 43 ∧ sign ≠ 45 then .error .badSign
      else if isErrorCodeValid name then
        if sign = 43 then extractModsLoop { result with addCodes := result.addCodes.add name } codes
        else extractModsLoop { result with subCodes := result.subCodes.add name } codes
      else .error .invalidCode

/-- annotation.go:122-146 `extractCodeModificationsFromStringAnnotation`. -/
def extractMods (result : Annotation) (annotation : GoString) : Except AnnDiag Annotation :=
  extractModsLoop result (split 32 annotation)

/-- annotation.go:70-88: what a non-empty remainder of an indicator line means. -/
def parseAnnotation (line : GoString) : Except AnnDiag Annotation :=
  match line with
  | [] => .error .expectedOp
  | c :: rest =>
    if c = 61 then
      match extractCodes rest with
      | .ok s => .ok { Annotation.blank with shouldOverwrite := true, overwrite := s }
      | .error e => .error e
    else if c = 43 then
      match rest with
      | 61 :: list =>
        match extractCodes list with
        | .ok s => .ok { Annotation.blank with addCodes := s }
        | .error e => .error e
      | _ => extractMods .blank line
    else if c = 45 then
      match rest with
      | 61 :: list =>
        match extractCodes list with
        | .ok s => .ok { Annotation.blank with subCodes := s }
        | .error e => .error e
      | _ => extractMods .blank line
    else .error .expectedOp

/-- annotation.go:51-94: the loop over the comment lines; returns the annotation and the diagnostics
emitted. -/
def annotationLoop (result : Option Annotation) (diags : List AnnDiag) :
    List GoString → Option Annotation × List AnnDiag
  | [] => (result, diags)
  | line :: lines =>
    let line := trimSpace line
    if ¬ hasPrefix line b!"Error Codes" then annotationLoop result diags lines
    else
      let line := trimSpace (trimPrefix line b!"Error Codes")
      if line = [] then (none, diags ++ [.expectedOp])
      else
        let diags := if result.isSome then diags ++ [.multiple] else diags
        match parseAnnotation line with
        | .error e => (none, diags ++ [e])
        | .ok a => annotationLoop (some a) diags lines

/-- annotation.go:35-97 `getReturnStmtAnnotations`; the argument lists the texts of the comment groups
attached to the return statement (`ast.CommentMap` itself is not modelled). -/
def getReturnStmtAnnotations (groups : List GoString) : Option Annotation × List AnnDiag :=
  if groups = [] then (none, [])
  else annotationLoop none [] (split 10 (join [10] groups))

/-- analyse.go:503-513: what a return statement contributes, given its annotation and the codes
analysed for its expression. -/
def applyAnnotation (a : Option Annotation) (analysed : CodeSet) : CodeSet :=
  match a with
  | none => analysed
  | some a =>
    if a.shouldOverwrite then a.overwrite
    else CodeSet.union (CodeSet.diff analysed a.subCodes) a.addCodes

end Serum
