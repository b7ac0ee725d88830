import Verif.Testdata.Extras
import Verif.Props.ScopeCheck

/-!
# C24, for the packages in analysis/testdata

Generated by `scripts/conformance/quiet.py`.  For every package: functions that call only each other, about whose bodies nothing is
reported and which are in scope of C24 (decided by evaluating `Check.quiet`); and the codes declared for those of them that have a
declaration and no mismatch.  They return only errors with these codes, whenever they are executed.
-/

set_option maxRecDepth 100000

namespace Serum.Testdata
open Serum

def annotation.quietFunctions : List FnId := [0, 2, 3, 4, 5, 7, 8, 9, 10, 11, 12, 13]

def annotation.declaredCodes : List (FnId × CodeSet) := [(0, [b!"overwritten-error"]), (2, []), (3, [b!"some-error",
    b!"overwritten-error"]), (4, [b!"some-1-error", b!"some-2-error", b!"overwritten-1-error", b!"overwritten-2-error",
    b!"overwritten-3-error", b!"overwritten-4-error"]), (5, []), (7, [b!"overwritten-error"]), (8, [b!"added-1-error", b!"added-2-error",
    b!"assigned-error", b!"some-1-error", b!"overwritten-2-error", b!"overwritten-3-error", b!"overwritten-4-error"])]

theorem annotation.quiet : Check.quiet annotation.package (Check.factsOf annotation.result) annotation.extra annotation.expected annotation.graph annotation.quietFunctions = true := by
  decide +kernel

theorem annotation.returnsOnly : Check.ReturnsOnly annotation.package annotation.extra true annotation.expected.ctors annotation.declaredCodes :=
  Check.returnsOnly annotation.checked annotation.imports annotation.quiet (fun _ _ => rfl) (fs := annotation.quietFunctions) (by decide +kernel)

def dereferenceAssignment.quietFunctions : List FnId := [2, 3, 4, 5, 6]

def dereferenceAssignment.declaredCodes : List (FnId × CodeSet) := []

theorem dereferenceAssignment.quiet : Check.quiet dereferenceAssignment.package (Check.factsOf dereferenceAssignment.result) dereferenceAssignment.extra dereferenceAssignment.expected dereferenceAssignment.graph dereferenceAssignment.quietFunctions = true := by
  decide +kernel

theorem dereferenceAssignment.returnsOnly : Check.ReturnsOnly dereferenceAssignment.package dereferenceAssignment.extra true dereferenceAssignment.expected.ctors dereferenceAssignment.declaredCodes :=
  Check.returnsOnly dereferenceAssignment.checked dereferenceAssignment.imports dereferenceAssignment.quiet (fun _ _ => rfl) (fs := dereferenceAssignment.quietFunctions) (by decide +kernel)

def docformat.quietFunctions : List FnId := [0, 1, 2, 3, 4, 5, 6, 7, 8, 9, 10, 11, 12, 13, 14, 15, 16, 17, 18, 19, 20, 21, 22, 23, 24, 25,
    26, 27, 28, 29]

def docformat.declaredCodes : List (FnId × CodeSet) := [(0, [b!"hello-error", b!"hello-unreachable"]), (1, [b!"unknown-error"]), (6, []),
    (7, [])]

theorem docformat.quiet : Check.quiet docformat.package (Check.factsOf docformat.result) docformat.extra docformat.expected docformat.graph docformat.quietFunctions = true := by
  decide +kernel

theorem docformat.returnsOnly : Check.ReturnsOnly docformat.package docformat.extra true docformat.expected.ctors docformat.declaredCodes :=
  Check.returnsOnly docformat.checked docformat.imports docformat.quiet (fun _ _ => rfl) (fs := docformat.quietFunctions) (by decide +kernel)

def dotimport.quietFunctions : List FnId := [0, 1, 2, 3, 4, 5, 10, 11, 12, 13, 14]

def dotimport.declaredCodes : List (FnId × CodeSet) := [(0, [b!"hello-error"]), (1, [b!"hello-error"]), (2, [b!"inner1-error"]), (3,
    [b!"inner2-error"]), (4, [b!"inner1-unused-error"]), (5, [b!"inner2-unused-error"])]

theorem dotimport.quiet : Check.quiet dotimport.package (Check.factsOf dotimport.result) dotimport.extra dotimport.expected dotimport.graph dotimport.quietFunctions = true := by
  decide +kernel

theorem dotimport.returnsOnly : Check.ReturnsOnly dotimport.package dotimport.extra true dotimport.expected.ctors dotimport.declaredCodes :=
  Check.returnsOnly dotimport.checked dotimport.imports dotimport.quiet (fun _ _ => rfl) (fs := dotimport.quietFunctions) (by decide +kernel)

def dotimportInner1.quietFunctions : List FnId := [0, 1, 2, 3, 4, 5, 6, 7, 8, 9]

def dotimportInner1.declaredCodes : List (FnId × CodeSet) := [(0, [b!"hello-error"])]

theorem dotimportInner1.quiet : Check.quiet dotimportInner1.package (Check.factsOf dotimportInner1.result) dotimportInner1.extra dotimportInner1.expected dotimportInner1.graph dotimportInner1.quietFunctions = true := by
  decide +kernel

theorem dotimportInner1.returnsOnly : Check.ReturnsOnly dotimportInner1.package dotimportInner1.extra true dotimportInner1.expected.ctors dotimportInner1.declaredCodes :=
  Check.returnsOnly dotimportInner1.checked dotimportInner1.imports dotimportInner1.quiet (fun _ _ => rfl) (fs := dotimportInner1.quietFunctions) (by decide +kernel)

def dotimportInner2.quietFunctions : List FnId := [0, 1, 2, 3, 4, 5, 6, 7, 8, 9]

def dotimportInner2.declaredCodes : List (FnId × CodeSet) := [(0, [b!"hello-error"])]

theorem dotimportInner2.quiet : Check.quiet dotimportInner2.package (Check.factsOf dotimportInner2.result) dotimportInner2.extra dotimportInner2.expected dotimportInner2.graph dotimportInner2.quietFunctions = true := by
  decide +kernel

theorem dotimportInner2.returnsOnly : Check.ReturnsOnly dotimportInner2.package dotimportInner2.extra true dotimportInner2.expected.ctors dotimportInner2.declaredCodes :=
  Check.returnsOnly dotimportInner2.checked dotimportInner2.imports dotimportInner2.quiet (fun _ _ => rfl) (fs := dotimportInner2.quietFunctions) (by decide +kernel)

def errorConstructor.quietFunctions : List FnId := [0, 1, 5, 7, 8, 9, 16, 18, 19, 20, 21, 22]

def errorConstructor.declaredCodes : List (FnId × CodeSet) := [(0, [b!"unknown-error"]), (1, []), (5, [b!"some-error"]), (7,
    [b!"param-error", b!"unknown-error"]), (8, [b!"unknown-error"]), (9, [b!"param-error"]), (16, [])]

theorem errorConstructor.quiet : Check.quiet errorConstructor.package (Check.factsOf errorConstructor.result) errorConstructor.extra errorConstructor.expected errorConstructor.graph errorConstructor.quietFunctions = true := by
  decide +kernel

theorem errorConstructor.returnsOnly : Check.ReturnsOnly errorConstructor.package errorConstructor.extra true errorConstructor.expected.ctors errorConstructor.declaredCodes :=
  Check.returnsOnly errorConstructor.checked errorConstructor.imports errorConstructor.quiet (fun _ _ => rfl) (fs := errorConstructor.quietFunctions) (by decide +kernel)

def errortypes.quietFunctions : List FnId := [1, 2, 3, 4, 5, 6, 7, 8, 9, 10, 11, 12, 13, 14, 15, 16, 17, 18, 19, 20, 21, 22, 23, 24, 25, 26,
    27, 28, 29, 30, 31, 32, 33, 34, 35, 36, 37, 38, 39, 43, 44, 45, 46, 47, 48, 49, 50, 51, 52, 53, 54, 55, 56]

def errortypes.declaredCodes : List (FnId × CodeSet) := []

theorem errortypes.quiet : Check.quiet errortypes.package (Check.factsOf errortypes.result) errortypes.extra errortypes.expected errortypes.graph errortypes.quietFunctions = true := by
  decide +kernel

theorem errortypes.returnsOnly : Check.ReturnsOnly errortypes.package errortypes.extra true errortypes.expected.ctors errortypes.declaredCodes :=
  Check.returnsOnly errortypes.checked errortypes.imports errortypes.quiet (fun _ _ => rfl) (fs := errortypes.quietFunctions) (by decide +kernel)

def examples.quietFunctions : List FnId := [0, 1, 2, 3, 4, 5, 7, 8, 9, 10, 11, 12, 13, 15, 16, 17, 18, 19, 20, 21, 22, 23, 24, 25, 26, 27,
    28, 29, 30, 31, 32, 33, 34, 36, 37]

def examples.declaredCodes : List (FnId × CodeSet) := [(4, [b!"examples-error-empty", b!"examples-error-disconnect",
    b!"examples-error-unknown"]), (7, [b!"examples-error-flagged", b!"examples-error-unknown", b!"examples-error-not-implemented"]), (8,
    [b!"examples-error-invalid-arg", b!"examples-error-invalid-collection", b!"examples-error-limit-reached"]), (11,
    [b!"examples-error-invalid-arg", b!"examples-error-invalid-collection", b!"examples-error-limit-reached"]), (12, []), (13,
    [b!"examples-error-not-implemented", b!"examples-error-closed", b!"examples-error-flagged", b!"examples-error-unknown"]), (15,
    [b!"examples-error-failed", b!"examples-error-invalid-name"]), (16, [b!"examples-error-failed", b!"examples-error-invalid-name"]), (17,
    [b!"examples-error-overwritten"]), (18, [b!"examples-error-one", b!"examples-error-two"]), (19, [b!"examples-error-one",
    b!"examples-error-two", b!"examples-error-three"]), (21, [b!"examples-error-two", b!"examples-error-three"]), (22,
    [b!"examples-error-one", b!"examples-error-extra"]), (23, [b!"assigned-error"]), (24, [b!"examples-error-arg-nil",
    b!"examples-error-invalid"]), (25, [b!"examples-error-invalid"]), (27, [b!"examples-error-not-implemented"]), (28,
    [b!"examples-error-not-implemented"]), (30, []), (31, [b!"examples-error-unknown", b!"examples-error-flagged"]), (32,
    [b!"examples-error-not-implemented"]), (33, [b!"examples-error-unknown", b!"examples-error-flagged"]), (34,
    [b!"examples-error-invalid"]), (36, [b!"example-error-unreachable"])]

theorem examples.quiet : Check.quiet examples.package (Check.factsOf examples.result) examples.extra examples.expected examples.graph examples.quietFunctions = true := by
  decide +kernel

theorem examples.returnsOnly : Check.ReturnsOnly examples.package examples.extra true examples.expected.ctors examples.declaredCodes :=
  Check.returnsOnly examples.checked examples.imports examples.quiet (fun _ _ => rfl) (fs := examples.quietFunctions) (by decide +kernel)

def fieldAssignment.quietFunctions : List FnId := [0, 1, 3, 4, 7, 9, 10, 11, 12, 13, 14, 15, 16, 17, 18]

def fieldAssignment.declaredCodes : List (FnId × CodeSet) := [(0, [b!"some-error", b!"other-error"]), (1, [b!"some-error",
    b!"other-1-error", b!"other-2-error", b!"other-3-error"]), (7, [b!"some-error", b!"other-error"])]

theorem fieldAssignment.quiet : Check.quiet fieldAssignment.package (Check.factsOf fieldAssignment.result) fieldAssignment.extra fieldAssignment.expected fieldAssignment.graph fieldAssignment.quietFunctions = true := by
  decide +kernel

theorem fieldAssignment.returnsOnly : Check.ReturnsOnly fieldAssignment.package fieldAssignment.extra true fieldAssignment.expected.ctors fieldAssignment.declaredCodes :=
  Check.returnsOnly fieldAssignment.checked fieldAssignment.imports fieldAssignment.quiet (fun _ _ => rfl) (fs := fieldAssignment.quietFunctions) (by decide +kernel)

def funcLiteral.quietFunctions : List FnId := [0, 1, 2, 3, 4, 5, 6, 7, 8, 9, 10, 11, 12, 13, 14, 15, 16, 17, 18, 19, 20, 21, 22, 23, 25, 26,
    27, 30, 31, 32, 33, 34, 38, 39, 40, 41, 42, 43, 44]

def funcLiteral.declaredCodes : List (FnId × CodeSet) := [(0, [b!"some-error"]), (4, [b!"lambda-1-error", b!"lambda-2-error",
    b!"lambda-3-error", b!"lambda-4-error", b!"lambda-5-error", b!"lambda-6-error", b!"lambda-7-error", b!"function-1-error",
    b!"function-2-error", b!"other-function-error"]), (13, [b!"lambda-1-error", b!"lambda-2-error", b!"lambda-3-error", b!"lambda-4-error",
    b!"lambda-5-error", b!"lambda-6-error", b!"lambda-7-error", b!"function-1-error", b!"function-2-error", b!"other-function-error"])]

theorem funcLiteral.quiet : Check.quiet funcLiteral.package (Check.factsOf funcLiteral.result) funcLiteral.extra funcLiteral.expected funcLiteral.graph funcLiteral.quietFunctions = true := by
  decide +kernel

theorem funcLiteral.returnsOnly : Check.ReturnsOnly funcLiteral.package funcLiteral.extra true funcLiteral.expected.ctors funcLiteral.declaredCodes :=
  Check.returnsOnly funcLiteral.checked funcLiteral.imports funcLiteral.quiet (fun _ _ => rfl) (fs := funcLiteral.quietFunctions) (by decide +kernel)

def funcLiteralInner.quietFunctions : List FnId := [0, 1, 2, 3, 4, 5]

def funcLiteralInner.declaredCodes : List (FnId × CodeSet) := [(0, [b!"function-2-error"])]

theorem funcLiteralInner.quiet : Check.quiet funcLiteralInner.package (Check.factsOf funcLiteralInner.result) funcLiteralInner.extra funcLiteralInner.expected funcLiteralInner.graph funcLiteralInner.quietFunctions = true := by
  decide +kernel

theorem funcLiteralInner.returnsOnly : Check.ReturnsOnly funcLiteralInner.package funcLiteralInner.extra true funcLiteralInner.expected.ctors funcLiteralInner.declaredCodes :=
  Check.returnsOnly funcLiteralInner.checked funcLiteralInner.imports funcLiteralInner.quiet (fun _ _ => rfl) (fs := funcLiteralInner.quietFunctions) (by decide +kernel)

def interfaces.quietFunctions : List FnId := [0, 1, 2, 3, 4, 5, 6, 7, 8, 9, 10, 11, 12, 13, 14, 15, 16, 17, 18, 19, 20, 21, 22, 23, 24, 25,
    26, 27, 28, 29, 30, 31, 32, 33, 34, 35, 36, 37, 38, 39, 40, 41, 42, 43, 44, 45, 46, 47, 48, 49, 50, 51]

def interfaces.declaredCodes : List (FnId × CodeSet) := [(0, [b!"interface-1-error", b!"interface-2-error", b!"interface-3-error",
    b!"interface-4-error"]), (1, [b!"interface-1-error", b!"interface-2-error", b!"interface-3-error", b!"interface-4-error"]), (2,
    [b!"interface-1-error"]), (3, [b!"interface-3-error"]), (5, [b!"interface-1-error"]), (7, [b!"interface-1-error",
    b!"interface-2-error"]), (8, [b!"interface-1-error", b!"interface-2-error", b!"interface-3-error", b!"interface-4-error"]), (9,
    [b!"ree-error"]), (10, [b!"interface-1-error", b!"interface-2-error"]), (17, [b!"unknown-error"]), (46, [b!"unknown-error"]), (47,
    [b!"unknown-error"]), (48, [b!"unknown-1-error", b!"unknown-2-error", b!"unknown-3-error"])]

theorem interfaces.quiet : Check.quiet interfaces.package (Check.factsOf interfaces.result) interfaces.extra interfaces.expected interfaces.graph interfaces.quietFunctions = true := by
  decide +kernel

theorem interfaces.returnsOnly : Check.ReturnsOnly interfaces.package interfaces.extra true interfaces.expected.ctors interfaces.declaredCodes :=
  Check.returnsOnly interfaces.checked interfaces.imports interfaces.quiet (fun _ _ => rfl) (fs := interfaces.quietFunctions) (by decide +kernel)

def interfacesInner1.quietFunctions : List FnId := [0, 4, 5, 6, 7, 8, 9, 10, 11, 12, 13, 14]

def interfacesInner1.declaredCodes : List (FnId × CodeSet) := [(0, [b!"interface-1-error", b!"interface-2-error", b!"interface-3-error",
    b!"interface-4-error"]), (4, [b!"interface-1-error"]), (5, [b!"interface-3-error"]), (7, [b!"interface-2-error"]), (8,
    [b!"interface-4-error"])]

theorem interfacesInner1.quiet : Check.quiet interfacesInner1.package (Check.factsOf interfacesInner1.result) interfacesInner1.extra interfacesInner1.expected interfacesInner1.graph interfacesInner1.quietFunctions = true := by
  decide +kernel

theorem interfacesInner1.returnsOnly : Check.ReturnsOnly interfacesInner1.package interfacesInner1.extra true interfacesInner1.expected.ctors interfacesInner1.declaredCodes :=
  Check.returnsOnly interfacesInner1.checked interfacesInner1.imports interfacesInner1.quiet (fun _ _ => rfl) (fs := interfacesInner1.quietFunctions) (by decide +kernel)

def interfacesInner2.quietFunctions : List FnId := [0, 1, 2, 3, 4, 5, 6, 7, 8, 9, 10, 11, 12, 13]

def interfacesInner2.declaredCodes : List (FnId × CodeSet) := [(0, [b!"interface-1-error"]), (1, [b!"interface-3-error"]), (3,
    [b!"interface-2-error"]), (4, [b!"interface-4-error"]), (6, [b!"interface-2-error"]), (7, [])]

theorem interfacesInner2.quiet : Check.quiet interfacesInner2.package (Check.factsOf interfacesInner2.result) interfacesInner2.extra interfacesInner2.expected interfacesInner2.graph interfacesInner2.quietFunctions = true := by
  decide +kernel

theorem interfacesInner2.returnsOnly : Check.ReturnsOnly interfacesInner2.package interfacesInner2.extra true interfacesInner2.expected.ctors interfacesInner2.declaredCodes :=
  Check.returnsOnly interfacesInner2.checked interfacesInner2.imports interfacesInner2.quiet (fun _ _ => rfl) (fs := interfacesInner2.quietFunctions) (by decide +kernel)

def methods.quietFunctions : List FnId := [0, 1, 2, 3, 4, 5, 6, 7, 8, 9, 10, 11, 12, 13, 14, 15, 16, 17, 18, 19, 20, 21, 22, 23, 24, 25, 26,
    27, 28, 29, 30, 31, 32, 33, 34, 35]

def methods.declaredCodes : List (FnId × CodeSet) := [(0, [b!"easy-error"]), (1, [b!"easy-error"]), (2, [b!"easy-error"]), (3,
    [b!"easy-error"]), (4, [b!"easy-error"]), (5, [b!"easy-error"]), (6, [b!"easy-error"]), (7, [b!"easy-error"]), (18, [b!"a-error"]), (19,
    [b!"a-error"]), (20, [b!"a-value-error"]), (21, [b!"a-error", b!"b-error", b!"c-error"]), (22, [b!"a-error", b!"b-error", b!"c-error"]),
    (23, [b!"a-value-error", b!"b-value-error", b!"c-value-error"]), (24, [b!"a-error", b!"b-error", b!"c-error", b!"x-error"]), (25,
    [b!"a-error", b!"b-error", b!"c-error"]), (26, [b!"a-error"]), (27, [b!"c-error"]), (28, [b!"a-error", b!"c-error"]), (30,
    [b!"a-error"])]

theorem methods.quiet : Check.quiet methods.package (Check.factsOf methods.result) methods.extra methods.expected methods.graph methods.quietFunctions = true := by
  decide +kernel

theorem methods.returnsOnly : Check.ReturnsOnly methods.package methods.extra true methods.expected.ctors methods.declaredCodes :=
  Check.returnsOnly methods.checked methods.imports methods.quiet (fun _ _ => rfl) (fs := methods.quietFunctions) (by decide +kernel)

def multifile.quietFunctions : List FnId := [0, 2, 3, 4, 5, 6, 7]

def multifile.declaredCodes : List (FnId × CodeSet) := [(0, [b!"func1-error", b!"func2-error"]), (7, [b!"func2-error"])]

theorem multifile.quiet : Check.quiet multifile.package (Check.factsOf multifile.result) multifile.extra multifile.expected multifile.graph multifile.quietFunctions = true := by
  decide +kernel

theorem multifile.returnsOnly : Check.ReturnsOnly multifile.package multifile.extra true multifile.expected.ctors multifile.declaredCodes :=
  Check.returnsOnly multifile.checked multifile.imports multifile.quiet (fun _ _ => rfl) (fs := multifile.quietFunctions) (by decide +kernel)

def multipackage.quietFunctions : List FnId := [0, 1, 2, 3, 4, 5, 6, 7, 8, 9, 14, 15, 16, 17, 18]

def multipackage.declaredCodes : List (FnId × CodeSet) := [(0, [b!"hello-error"]), (1, [b!"hello-error"]), (2, [b!"hello-error"]), (3,
    [b!"hello-error"]), (6, [b!"inner1-error"]), (7, [b!"inner2-error"]), (8, [b!"inner1-unused-error"]), (9, [b!"inner2-unused-error"])]

theorem multipackage.quiet : Check.quiet multipackage.package (Check.factsOf multipackage.result) multipackage.extra multipackage.expected multipackage.graph multipackage.quietFunctions = true := by
  decide +kernel

theorem multipackage.returnsOnly : Check.ReturnsOnly multipackage.package multipackage.extra true multipackage.expected.ctors multipackage.declaredCodes :=
  Check.returnsOnly multipackage.checked multipackage.imports multipackage.quiet (fun _ _ => rfl) (fs := multipackage.quietFunctions) (by decide +kernel)

def multipackageInner1.quietFunctions : List FnId := [0, 1, 2, 3, 4, 5, 6, 7, 8, 9]

def multipackageInner1.declaredCodes : List (FnId × CodeSet) := [(0, [b!"hello-error"])]

theorem multipackageInner1.quiet : Check.quiet multipackageInner1.package (Check.factsOf multipackageInner1.result) multipackageInner1.extra multipackageInner1.expected multipackageInner1.graph multipackageInner1.quietFunctions = true := by
  decide +kernel

theorem multipackageInner1.returnsOnly : Check.ReturnsOnly multipackageInner1.package multipackageInner1.extra true multipackageInner1.expected.ctors multipackageInner1.declaredCodes :=
  Check.returnsOnly multipackageInner1.checked multipackageInner1.imports multipackageInner1.quiet (fun _ _ => rfl) (fs := multipackageInner1.quietFunctions) (by decide +kernel)

def multipackageInner2.quietFunctions : List FnId := [0, 1, 2, 3, 4, 5, 6, 7, 8, 9]

def multipackageInner2.declaredCodes : List (FnId × CodeSet) := [(0, [b!"hello-error"])]

theorem multipackageInner2.quiet : Check.quiet multipackageInner2.package (Check.factsOf multipackageInner2.result) multipackageInner2.extra multipackageInner2.expected multipackageInner2.graph multipackageInner2.quietFunctions = true := by
  decide +kernel

theorem multipackageInner2.returnsOnly : Check.ReturnsOnly multipackageInner2.package multipackageInner2.extra true multipackageInner2.expected.ctors multipackageInner2.declaredCodes :=
  Check.returnsOnly multipackageInner2.checked multipackageInner2.imports multipackageInner2.quiet (fun _ _ => rfl) (fs := multipackageInner2.quietFunctions) (by decide +kernel)

def p001.quietFunctions : List FnId := [0, 1, 4, 10, 11, 14, 15, 16, 17, 18, 19, 20, 23, 24, 25, 26, 27, 28, 29, 30, 31, 32, 33, 34, 35, 36,
    37, 38, 39]

def p001.declaredCodes : List (FnId × CodeSet) := [(15, [b!"hello-error"]), (16, [b!"hello-error"]), (18, [b!"zonk-error"]), (19,
    [b!"zonk-error"]), (20, [b!"hello-error", b!"zonk-error"]), (23, [b!"named-error"]), (24, [b!"named-error"]), (25, [b!"some-error"]),
    (26, [b!"value-error"]), (27, [b!"io-error"]), (28, []), (30, [b!"var-error"])]

theorem p001.quiet : Check.quiet p001.package (Check.factsOf p001.result) p001.extra p001.expected p001.graph p001.quietFunctions = true := by
  decide +kernel

theorem p001.returnsOnly : Check.ReturnsOnly p001.package p001.extra true p001.expected.ctors p001.declaredCodes :=
  Check.returnsOnly p001.checked p001.imports p001.quiet (fun _ _ => rfl) (fs := p001.quietFunctions) (by decide +kernel)

def recursion.quietFunctions : List FnId := [0, 1, 2, 3, 4, 5, 6, 7, 8, 9, 10, 11, 12, 13, 14, 15, 16, 17, 18, 19, 20, 21, 22, 23, 24, 25,
    26, 27]

def recursion.declaredCodes : List (FnId × CodeSet) := [(0, [b!"recursion-error"]), (1, [b!"recursion-error"]), (3, [b!"recursion-error",
    b!"recursion-part1-error", b!"recursion-part2-error"]), (6, [b!"recursion-inner1-error", b!"recursion-inner2-error",
    b!"recursion-inner3-error"]), (10, [b!"advanced-a-error", b!"advanced-c-error", b!"advanced-d-error", b!"advanced-e-error",
    b!"advanced-f-error", b!"advanced-g-error"]), (11, [b!"advanced-b-error", b!"advanced-c-error", b!"advanced-d-error",
    b!"advanced-e-error", b!"advanced-f-error", b!"advanced-g-error"]), (17, [b!"advanced-h-error", b!"advanced-e-error",
    b!"advanced-f-error", b!"advanced-g-error"]), (18, [b!"splitmerge-a-error", b!"splitmerge-b-error", b!"splitmerge-c-error",
    b!"splitmerge-d-error", b!"splitmerge-e-error"])]

theorem recursion.quiet : Check.quiet recursion.package (Check.factsOf recursion.result) recursion.extra recursion.expected recursion.graph recursion.quietFunctions = true := by
  decide +kernel

theorem recursion.returnsOnly : Check.ReturnsOnly recursion.package recursion.extra true recursion.expected.ctors recursion.declaredCodes :=
  Check.returnsOnly recursion.checked recursion.imports recursion.quiet (fun _ _ => rfl) (fs := recursion.quietFunctions) (by decide +kernel)

def typeAssertion.quietFunctions : List FnId := [3, 4, 7, 8, 9, 10, 11, 12, 13, 14, 15]

def typeAssertion.declaredCodes : List (FnId × CodeSet) := [(4, [b!"maybe-error", b!"standard-error"]), (7, [b!"interface-error"]), (8,
    [b!"standard-error"]), (10, [b!"maybe-error"])]

theorem typeAssertion.quiet : Check.quiet typeAssertion.package (Check.factsOf typeAssertion.result) typeAssertion.extra typeAssertion.expected typeAssertion.graph typeAssertion.quietFunctions = true := by
  decide +kernel

theorem typeAssertion.returnsOnly : Check.ReturnsOnly typeAssertion.package typeAssertion.extra true typeAssertion.expected.ctors typeAssertion.declaredCodes :=
  Check.returnsOnly typeAssertion.checked typeAssertion.imports typeAssertion.quiet (fun _ _ => rfl) (fs := typeAssertion.quietFunctions) (by decide +kernel)

def typecast.quietFunctions : List FnId := [0, 1, 2, 3]

def typecast.declaredCodes : List (FnId × CodeSet) := [(0, [b!"string-error"])]

theorem typecast.quiet : Check.quiet typecast.package (Check.factsOf typecast.result) typecast.extra typecast.expected typecast.graph typecast.quietFunctions = true := by
  decide +kernel

theorem typecast.returnsOnly : Check.ReturnsOnly typecast.package typecast.extra true typecast.expected.ctors typecast.declaredCodes :=
  Check.returnsOnly typecast.checked typecast.imports typecast.quiet (fun _ _ => rfl) (fs := typecast.quietFunctions) (by decide +kernel)

/-- These executions exist: `ExportedFunc1` of multipackage/inner1 returns an error with the declared code. -/
theorem multipackageInner1.returnsHello :
    Runtime.Yields (multipackageInner1.package.at_ (RunSpec.during multipackageInner1.package (Check.factsOf multipackageInner1.result)))
      multipackageInner1.extra (.ret 0 []) ⟨⟨[], some ⟨b!"TheCode", 0⟩⟩, b!"hello-error"⟩ := by
  refine .returned (body := _) (id := 12583) (results := _) rfl ⟨_, .head _, .self⟩ (.inl rfl) (.pointerLiteral rfl rfl (by decide +kernel) ?_) ?_
  · intro fd hfd
    cases hfd
    refine .inr (.inl ⟨fun e he id k v h => ?_, _, rfl, .constant (by decide +kernel)⟩)
    rw [List.mem_singleton.1 he] at h
    exact Node.noConfusion h
  · intro a ha
    have : (getReturnStmtAnnotations (multipackageInner1.package.env.comments 12583)).1 = none := by decide +kernel
    have ha' : (getReturnStmtAnnotations (multipackageInner1.package.env.comments 12583)).1 = some a := ha
    rw [this] at ha'; cases ha'

end Serum.Testdata
