import Verif.Testdata.Bodies
import Verif.ScopeCheck

/-!
# What the syntax trees of the packages in analysis/testdata leave out

Generated by `scripts/conformance/sound.py`: `Runtime.Extra` of the packages.  The listed fields are all selected fields of structs, with the declared type
that has the field.
-/

set_option linter.all false
set_option maxRecDepth 100000

namespace Serum.Testdata
open Serum

/-- The error type of a selected field, if it is the field with the error code. -/
def codeField (fields : Tree (Object × GoString)) (types : List (Object × ErrorType)) (n : NodeId) : Option ErrorType :=
  (fields.find n).bind fun p => (Check.find p.1 types).bind fun et => if et.field.any (fun fd => fd.name == p.2) then some et else none

/-- The extra parts of a program, from tables. -/
def extraOf (conversions shifted ops : List NodeId) (fields : Tree (Object × GoString)) (types : List (Object × ErrorType)) (derefs : List NodeId)
    (deferred : List FnId) : Runtime.Extra where
  conversion := fun n => conversions.contains n
  shift := fun n => if shifted.contains n then 1 else 0
  op := fun n => ops.contains n
  codeField := codeField fields types
  deref := fun n => derefs.contains n
  deferred := fun f => deferred.contains f
  foreign := fun _ _ => False
  declared := fun _ _ _ => False

def p001.extra : Runtime.Extra :=
  extraOf [] [] []
    (.node (.node Tree.nil 509 ((80, b!"TheCode")) Tree.nil) 772 ((80, b!"TheCode")) (.node Tree.nil 789 ((80, b!"TheCode")) Tree.nil))
    p001.expected.errorTypes [] []

def annotation.extra : Runtime.Extra :=
  extraOf [] [] []
    (.node (.node (.node Tree.nil 1011 ((136, b!"TheCode")) Tree.nil) 1074 ((136, b!"TheCode")) (.node Tree.nil 1122 ((136, b!"TheCode")) Tree.nil)) 1136 ((136, b!"TheCode")) (.node (.node Tree.nil 1184 ((136, b!"TheCode")) Tree.nil) 1225 ((136, b!"TheCode")) (.node Tree.nil 1242 ((136, b!"TheCode")) Tree.nil)))
    annotation.expected.errorTypes [] []

def docformat.extra : Runtime.Extra :=
  extraOf [] [] []
    (.node (.node Tree.nil 1939 ((185, b!"TheCode")) Tree.nil) 1956 ((185, b!"TheCode")) Tree.nil)
    docformat.expected.errorTypes [] []

def dotimportInner1.extra : Runtime.Extra :=
  extraOf [] [] []
    (.node (.node (.node Tree.nil 2086 ((220, b!"TheCode")) Tree.nil) 2103 ((220, b!"TheCode")) Tree.nil) 2178 ((226, b!"TheCode")) (.node Tree.nil 2195 ((226, b!"TheCode")) Tree.nil))
    dotimportInner1.expected.errorTypes [] []

def dotimportInner2.extra : Runtime.Extra :=
  extraOf [] [] []
    (.node (.node (.node Tree.nil 2562 ((242, b!"TheCode")) Tree.nil) 2579 ((242, b!"TheCode")) Tree.nil) 2654 ((248, b!"TheCode")) (.node Tree.nil 2671 ((248, b!"TheCode")) Tree.nil))
    dotimportInner2.expected.errorTypes [] []

def dotimport.extra : Runtime.Extra :=
  extraOf [] [] []
    (.node (.node Tree.nil 2420 ((270, b!"TheCode")) Tree.nil) 2437 ((270, b!"TheCode")) Tree.nil)
    dotimport.expected.errorTypes [] []

def errorConstructor.extra : Runtime.Extra :=
  extraOf [] [] []
    (.node (.node (.node Tree.nil 2871 ((302, b!"TheCode")) Tree.nil) 2902 ((302, b!"TheCode")) Tree.nil) 3174 ((302, b!"TheCode")) (.node Tree.nil 3191 ((302, b!"TheCode")) Tree.nil))
    errorConstructor.expected.errorTypes [] []

def errortypes.extra : Runtime.Extra :=
  extraOf [3522, 3528, 4332] [] []
    (.node (.node (.node (.node (.node (.node Tree.nil 3852 ((368, b!"field1")) Tree.nil) 3855 ((368, b!"field2")) Tree.nil) 3916 ((373, b!"field")) (.node Tree.nil 3959 ((376, b!"field1")) Tree.nil)) 3965 ((376, b!"field2")) (.node (.node Tree.nil 3970 ((376, b!"field3")) Tree.nil) 4015 ((379, b!"field2")) (.node Tree.nil 4082 ((385, b!"field")) Tree.nil))) 4132 ((388, b!"field")) (.node (.node (.node Tree.nil 4176 ((391, b!"errorCode")) Tree.nil) 4215 ((382, b!"Some")) (.node Tree.nil 4256 ((397, b!"field")) Tree.nil)) 4375 ((406, b!"flag1")) (.node (.node Tree.nil 4379 ((406, b!"code")) Tree.nil) 4386 ((406, b!"flag2")) (.node Tree.nil 4390 ((406, b!"code")) Tree.nil)))) 4393 ((406, b!"code")) (.node (.node (.node (.node (.node Tree.nil 4401 ((406, b!"code")) Tree.nil) 4418 ((406, b!"flag1")) Tree.nil) 4422 ((406, b!"code")) (.node Tree.nil 4429 ((406, b!"flag2")) Tree.nil)) 4433 ((406, b!"code")) (.node (.node Tree.nil 4436 ((406, b!"code")) Tree.nil) 4459 ((406, b!"flag1")) (.node Tree.nil 4463 ((406, b!"code")) Tree.nil))) 4470 ((406, b!"flag2")) (.node (.node (.node Tree.nil 4474 ((406, b!"code")) Tree.nil) 4477 ((406, b!"code")) (.node Tree.nil 4598 ((416, b!"TheCode")) Tree.nil)) 4646 ((419, b!"TheCode")) (.node (.node Tree.nil 4698 ((422, b!"TheCode")) Tree.nil) 4747 ((425, b!"TheCode")) (.node Tree.nil 4789 ((428, b!"TheCode")) Tree.nil)))))
    errortypes.expected.errorTypes [] []

def examples.extra : Runtime.Extra :=
  extraOf [4962, 4983] [] []
    (.node (.node (.node (.node (.node (.node Tree.nil 4874 ((539, b!"TheCode")) Tree.nil) 4891 ((539, b!"TheCode")) Tree.nil) 5011 ((550, b!"code")) (.node Tree.nil 5028 ((550, b!"flag")) Tree.nil)) 5032 ((550, b!"code")) (.node (.node Tree.nil 5039 ((550, b!"code")) Tree.nil) 5049 ((550, b!"code")) (.node Tree.nil 5127 ((554, b!"limit")) Tree.nil))) 5142 ((554, b!"values")) (.node (.node (.node Tree.nil 5146 ((554, b!"limit")) Tree.nil) 5158 ((554, b!"values")) (.node Tree.nil 5162 ((554, b!"values")) Tree.nil)) 5222 ((554, b!"limit")) (.node (.node Tree.nil 5237 ((554, b!"values")) Tree.nil) 5241 ((554, b!"limit")) (.node Tree.nil 5253 ((554, b!"values")) Tree.nil)))) 5257 ((554, b!"values")) (.node (.node (.node (.node (.node Tree.nil 5300 ((554, b!"limit")) Tree.nil) 5314 ((554, b!"values")) Tree.nil) 5318 ((554, b!"limit")) (.node Tree.nil 5329 ((554, b!"values")) Tree.nil)) 5333 ((554, b!"values")) (.node (.node Tree.nil 5449 ((539, b!"TheCode")) Tree.nil) 5456 ((539, b!"TheCode")) (.node Tree.nil 5462 ((539, b!"TheCode")) Tree.nil))) 5683 ((539, b!"TheCode")) (.node (.node (.node Tree.nil 5781 ((574, b!"value")) Tree.nil) 5795 ((574, b!"value")) (.node Tree.nil 5821 ((574, b!"value")) Tree.nil)) 5836 ((574, b!"value")) (.node (.node Tree.nil 5841 ((574, b!"value")) Tree.nil) 6019 ((550, b!"code")) (.node Tree.nil 6103 ((539, b!"TheCode")) Tree.nil)))))
    examples.expected.errorTypes [] []

def fieldAssignment.extra : Runtime.Extra :=
  extraOf [] [] []
    (.node (.node (.node (.node (.node Tree.nil 6180 ((662, b!"TheCode")) Tree.nil) 6207 ((662, b!"TheCode")) (.node Tree.nil 6221 ((662, b!"TheCode")) Tree.nil)) 6238 ((662, b!"TheCode")) (.node (.node Tree.nil 6249 ((662, b!"TheCode")) Tree.nil) 6276 ((662, b!"TheCode")) Tree.nil)) 6326 ((662, b!"TheCode")) (.node (.node (.node Tree.nil 6333 ((662, b!"TheCode")) Tree.nil) 6342 ((662, b!"TheCode")) (.node Tree.nil 6350 ((662, b!"TheCode")) Tree.nil)) 6353 ((662, b!"TheCode")) (.node (.node Tree.nil 6393 ((662, b!"TheCode")) Tree.nil) 6404 ((662, b!"TheCode")) Tree.nil))) 6407 ((658, b!"Field1")) (.node (.node (.node (.node Tree.nil 6410 ((658, b!"Field2")) Tree.nil) 6415 ((658, b!"Field2")) (.node Tree.nil 6418 ((662, b!"TheCode")) Tree.nil)) 6445 ((668, b!"Other")) (.node (.node Tree.nil 6452 ((668, b!"Other")) Tree.nil) 6459 ((668, b!"TheCode")) Tree.nil)) 6487 ((668, b!"TheCode")) (.node (.node (.node Tree.nil 6490 ((668, b!"TheCode")) Tree.nil) 6496 ((668, b!"Other")) (.node Tree.nil 6537 ((662, b!"TheCode")) Tree.nil)) 6554 ((662, b!"TheCode")) (.node (.node Tree.nil 6630 ((668, b!"TheCode")) Tree.nil) 6647 ((668, b!"TheCode")) Tree.nil))))
    fieldAssignment.expected.errorTypes [] []

def funcLiteralInner.extra : Runtime.Extra :=
  extraOf [] [] []
    (.node (.node Tree.nil 7612 ((713, b!"TheCode")) Tree.nil) 7629 ((713, b!"TheCode")) Tree.nil)
    funcLiteralInner.expected.errorTypes [] []

def funcLiteral.extra : Runtime.Extra :=
  extraOf [] [] []
    (.node (.node Tree.nil 7488 ((736, b!"TheCode")) Tree.nil) 7505 ((736, b!"TheCode")) Tree.nil)
    funcLiteral.expected.errorTypes [] []

def interfacesInner1.extra : Runtime.Extra :=
  extraOf [] [] []
    (.node (.node Tree.nil 8089 ((786, b!"TheCode")) Tree.nil) 8106 ((786, b!"TheCode")) Tree.nil)
    interfacesInner1.expected.errorTypes [] []

def interfacesInner2.extra : Runtime.Extra :=
  extraOf [] [] []
    (.node (.node Tree.nil 11458 ((836, b!"TheCode")) Tree.nil) 11475 ((836, b!"TheCode")) Tree.nil)
    interfacesInner2.expected.errorTypes [] []

def interfaces.extra : Runtime.Extra :=
  extraOf [9497, 9502, 9507] [] []
    (.node (.node Tree.nil 8677 ((888, b!"TheCode")) Tree.nil) 8694 ((888, b!"TheCode")) Tree.nil)
    interfaces.expected.errorTypes [] []

def methods.extra : Runtime.Extra :=
  extraOf [] [] []
    (.node (.node Tree.nil 12226 ((1116, b!"A")) Tree.nil) 12334 ((1151, b!"TheCode")) (.node Tree.nil 12351 ((1151, b!"TheCode")) Tree.nil))
    methods.expected.errorTypes [] []

def multifile.extra : Runtime.Extra :=
  extraOf [] [] []
    (.node (.node Tree.nil 12473 ((1193, b!"TheCode")) Tree.nil) 12490 ((1193, b!"TheCode")) Tree.nil)
    multifile.expected.errorTypes [] []

def multipackageInner1.extra : Runtime.Extra :=
  extraOf [] [] []
    (.node (.node (.node Tree.nil 12641 ((1211, b!"TheCode")) Tree.nil) 12658 ((1211, b!"TheCode")) Tree.nil) 12733 ((1217, b!"TheCode")) (.node Tree.nil 12750 ((1217, b!"TheCode")) Tree.nil))
    multipackageInner1.expected.errorTypes [] []

def multipackageInner2.extra : Runtime.Extra :=
  extraOf [] [] []
    (.node (.node (.node Tree.nil 13202 ((1234, b!"TheCode")) Tree.nil) 13219 ((1234, b!"TheCode")) Tree.nil) 13294 ((1240, b!"TheCode")) (.node Tree.nil 13311 ((1240, b!"TheCode")) Tree.nil))
    multipackageInner2.expected.errorTypes [] []

def multipackage.extra : Runtime.Extra :=
  extraOf [] [] []
    (.node (.node Tree.nil 13060 ((1268, b!"TheCode")) Tree.nil) 13077 ((1268, b!"TheCode")) Tree.nil)
    multipackage.expected.errorTypes [] []

def recursion.extra : Runtime.Extra :=
  extraOf [] [] []
    (.node (.node Tree.nil 13812 ((1306, b!"TheCode")) Tree.nil) 13829 ((1306, b!"TheCode")) Tree.nil)
    recursion.expected.errorTypes [] []

def typecast.extra : Runtime.Extra :=
  extraOf [13895, 13944] [] []
    Tree.nil
    typecast.expected.errorTypes [] []

def dereferenceAssignment.extra : Runtime.Extra :=
  extraOf [] [] []
    (.node (.node Tree.nil 14024 ((1326, b!"TheCode")) Tree.nil) 14041 ((1326, b!"TheCode")) Tree.nil)
    dereferenceAssignment.expected.errorTypes [13971, 13994] []

def typeAssertion.extra : Runtime.Extra :=
  extraOf [] [] []
    (.node (.node Tree.nil 14381 ((1358, b!"TheCode")) Tree.nil) 14398 ((1358, b!"TheCode")) Tree.nil)
    typeAssertion.expected.errorTypes [] []

end Serum.Testdata
