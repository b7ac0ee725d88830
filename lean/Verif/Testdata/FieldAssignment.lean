import Verif.Testdata.Support

/-!
# C54: the package analysis/testdata/src/field_assignment

Generated by `scripts/conformance/testdata.py` from field_assignment.go.  Numbers of syntax nodes, objects and types are arbitrary.  The tables hold
what `go/parser` and `go/types` say about the package.
-/

set_option maxRecDepth 100000
set_option linter.all false

namespace Serum.Testdata.fieldAssignment
open Serum Serum.Testdata

def s0 : GoString := b!"EasyAssignment"
def s1 : GoString := b!"err"
def s2 : GoString := b!"true"
def s3 : GoString := b!"TheCode"
def s4 : GoString := b!"ConstantExpressionAssignments"
def s5 : GoString := b!"errorSuffix"
def s6 : GoString := b!"code"
def s7 : GoString := b!"code1"
def s8 : GoString := b!"code2"
def s9 : GoString := b!"AssignInvalidCode"
def s10 : GoString := b!"returnCode"
def s11 : GoString := b!"returnTwoCodes"
def s12 : GoString := b!"AssignInvalidExpression"
def s13 : GoString := b!"input"
def s14 : GoString := b!"_"
def s15 : GoString := b!"AssignmentsToOtherStuff"
def s16 : GoString := b!"not_returned"
def s17 : GoString := b!"other"
def s18 : GoString := b!"Field1"
def s19 : GoString := b!"Field2"
def s20 : GoString := b!"AssignmentToOtherField"
def s21 : GoString := b!"Other"
def s22 : GoString := b!"ComplicatedAssignment"
def s23 : GoString := b!"err1"
def s24 : GoString := b!"err2"
def s25 : GoString := b!"err3"
def s26 : GoString := b!"Code"
def s27 : GoString := b!"e"
def s28 : GoString := b!"Message"
def s29 : GoString := b!"Details"
def s30 : GoString := b!"nil"
def s31 : GoString := b!"Cause"
def s32 : GoString := b!"Error"
def s33 : GoString := b!"some-error"
def s34 : GoString := b!"other-error"
def s35 : GoString := b!"-error"
def s36 : GoString := b!"other-1-error"
def s37 : GoString := b!"other-1"
def s38 : GoString := b!"other-2-error"
def s39 : GoString := b!"-3"
def s40 : GoString := b!"other-3-error"
def s41 : GoString := b!"other-3"
def s42 : GoString := b!""
def s43 : GoString := b!"-invalid-"
def s44 : GoString := b!"func-error"
def s45 : GoString := b!"other-func-error"
def s46 : GoString := b!"unused-error"
def s47 : GoString := b!"other-unused-error"
def s48 : GoString := b!"a"
def s49 : GoString := b!"b"
def s50 : GoString := b!"some garbage"
def s51 : GoString := b!"stuff"
def s52 : GoString := b!"constant"
def s53 : GoString := b!"don't care"
def s54 : GoString := b!"unused"
def s55 : GoString := b!"// Errors:"
def s56 : GoString := b!"//"
def s57 : GoString := b!"//    - some-error  --"
def s58 : GoString := b!"//    - other-error --"
def s59 : GoString := b!"//    - some-error    --"
def s60 : GoString := b!"//    - other-1-error --"
def s61 : GoString := b!"//    - other-2-error --"
def s62 : GoString := b!"//    - other-3-error --"
def s63 : GoString := b!"//    - some-error --"
def s64 : GoString := b!"OtherStuff"
def s65 : GoString := b!"string"
def s66 : GoString := b!"Error2"
/-- field_assignment.go:7: `func EasyAssignment` -/
def f0 : FuncDef := ⟨6188, some ⟨6164, s0, (some 0)⟩, ⟨[], (some [⟨[], 6166⟩]), 107⟩, some [.assign 6175 [.ident ⟨6170, s1, (some 1)⟩] [.unary 6174
  true (.compositeLit 6173 [.basicLit 6172])], .other 6184 [.ident ⟨6176, s2, none⟩, .other 6183 [.assign 6182 [.selector 6180 (.ident ⟨6178, s1,
  (some 1)⟩) ⟨6179, s3, none⟩] [.basicLit 6181]]], .ret 6186 [.ident ⟨6185, s1, (some 1)⟩]], 113, 261⟩
/-- field_assignment.go:23: `func ConstantExpressionAssignments` -/
def f1 : FuncDef := ⟨6259, some ⟨6193, s4, (some 4)⟩, ⟨[], (some [⟨[], 6195⟩]), 444⟩, some [.assign 6203 [.ident ⟨6199, s1, (some 5)⟩]
  [.compositeLit 6202 [.basicLit 6201]], .other 6254 [.other 6253 [.caseClause 6212 [.ident ⟨6204, s2, none⟩] [.assign 6211 [.selector 6207 (.ident
  ⟨6205, s1, (some 5)⟩) ⟨6206, s3, none⟩] [.other 6210 [.basicLit 6208, .ident ⟨6209, s5, (some 3)⟩]]], .caseClause 6224 [.ident ⟨6213, s2, none⟩]
  [.other 6218 [.other 6217 [.valueSpec 6216 [⟨6214, s6, (some 6)⟩] none [.basicLit 6215]]], .assign 6223 [.selector 6221 (.ident ⟨6219, s1, (some
  5)⟩) ⟨6220, s3, none⟩] [.ident ⟨6222, s6, (some 6)⟩]], .caseClause 6245 [.ident ⟨6225, s2, none⟩] [.other 6230 [.other 6229 [.valueSpec 6228
  [⟨6226, s7, (some 7)⟩] none [.basicLit 6227]]], .other 6235 [.other 6234 [.valueSpec 6233 [⟨6231, s8, (some 8)⟩] none [.basicLit 6232]]], .assign
  6244 [.selector 6238 (.ident ⟨6236, s1, (some 5)⟩) ⟨6237, s3, none⟩] [.other 6243 [.other 6241 [.ident ⟨6239, s7, (some 7)⟩, .ident ⟨6240, s8,
  (some 8)⟩], .ident ⟨6242, s5, (some 3)⟩]]], .caseClause 6252 [.ident ⟨6246, s2, none⟩] [.assign 6251 [.selector 6249 (.ident ⟨6247, s1, (some 5)⟩)
  ⟨6248, s3, none⟩] [.basicLit 6250]]]], .ret 6257 [.unary 6256 true (.ident ⟨6255, s1, (some 5)⟩)]], 450, 922⟩
/-- field_assignment.go:44: `func AssignInvalidCode` -/
def f2 : FuncDef := ⟨6284, some ⟨6260, s9, (some 9)⟩, ⟨[], (some [⟨[], 6262⟩]), 985⟩, some [.assign 6271 [.ident ⟨6266, s1, (some 10)⟩] [.unary 6270
  true (.compositeLit 6269 [.basicLit 6268])], .other 6280 [.ident ⟨6272, s2, none⟩, .other 6279 [.assign 6278 [.selector 6276 (.ident ⟨6274, s1,
  (some 10)⟩) ⟨6275, s3, none⟩] [.basicLit 6277]]], .ret 6282 [.ident ⟨6281, s1, (some 10)⟩]], 991, 1185⟩
/-- field_assignment.go:52: `func returnCode` -/
def f3 : FuncDef := ⟨6294, some ⟨6285, s10, (some 11)⟩, ⟨[], (some [⟨[], 6287⟩]), 1205⟩, some [.ret 6292 [.basicLit 6291]], 1212, 1236⟩
/-- field_assignment.go:56: `func returnTwoCodes` -/
def f4 : FuncDef := ⟨6307, some ⟨6295, s11, (some 12)⟩, ⟨[], (some [⟨[], 6297⟩, ⟨[], 6298⟩]), 1260⟩, some [.ret 6305 [.basicLit 6303, .basicLit
  6304]], 1277, 1321⟩
/-- field_assignment.go:63: `func AssignInvalidExpression` -/
def f5 : FuncDef := ⟨6363, some ⟨6308, s12, (some 13)⟩, ⟨[⟨[⟨6309, s13, (some 14)⟩], 6310⟩], (some [⟨[], 6313⟩]), 1402⟩, some [.assign 6322 [.ident
  ⟨6317, s1, (some 15)⟩] [.unary 6321 true (.compositeLit 6320 [.basicLit 6319])], .other 6359 [.other 6358 [.caseClause 6329 [.ident ⟨6323, s2,
  none⟩] [.assign 6328 [.selector 6326 (.ident ⟨6324, s1, (some 15)⟩) ⟨6325, s3, none⟩] [.ident ⟨6327, s13, (some 14)⟩]], .caseClause 6337 [.ident
  ⟨6330, s2, none⟩] [.assign 6336 [.selector 6333 (.ident ⟨6331, s1, (some 15)⟩) ⟨6332, s3, none⟩] [.call 6335 (.ident ⟨6334, s10, (some 11)⟩) []]],
  .caseClause 6346 [.ident ⟨6338, s2, none⟩] [.assign 6345 [.ident ⟨6339, s14, none⟩, .selector 6342 (.ident ⟨6340, s1, (some 15)⟩) ⟨6341, s3,
  none⟩] [.call 6344 (.ident ⟨6343, s11, (some 12)⟩) []]], .caseClause 6357 [.ident ⟨6347, s2, none⟩] [.assign 6356 [.selector 6350 (.ident ⟨6348,
  s1, (some 15)⟩) ⟨6349, s3, none⟩, .selector 6353 (.ident ⟨6351, s1, (some 15)⟩) ⟨6352, s3, none⟩] [.call 6355 (.ident ⟨6354, s11, (some 12)⟩)
  []]]]], .ret 6361 [.ident ⟨6360, s1, (some 15)⟩]], 1408, 2061⟩
/-- field_assignment.go:85: `func AssignmentsToOtherStuff` -/
def f6 : FuncDef := ⟨6425, some ⟨6373, s15, (some 19)⟩, ⟨[], (some [⟨[], 6375⟩]), 2181⟩, some [.assign 6384 [.ident ⟨6379, s1, (some 20)⟩] [.unary
  6383 true (.compositeLit 6382 [.basicLit 6381])], .assign 6390 [.ident ⟨6385, s16, (some 21)⟩] [.unary 6389 true (.compositeLit 6388 [.basicLit
  6387])], .assign 6395 [.selector 6393 (.ident ⟨6391, s16, (some 21)⟩) ⟨6392, s3, none⟩] [.basicLit 6394], .assign 6401 [.ident ⟨6396, s17, (some
  22)⟩] [.compositeLit 6400 [.basicLit 6398, .basicLit 6399]], .assign 6412 [.selector 6404 (.ident ⟨6402, s16, (some 21)⟩) ⟨6403, s3, none⟩]
  [.other 6411 [.selector 6407 (.ident ⟨6405, s17, (some 22)⟩) ⟨6406, s18, none⟩, .selector 6410 (.ident ⟨6408, s17, (some 22)⟩) ⟨6409, s19,
  none⟩]], .assign 6421 [.selector 6415 (.ident ⟨6413, s17, (some 22)⟩) ⟨6414, s19, none⟩] [.other 6420 [.selector 6418 (.ident ⟨6416, s16, (some
  21)⟩) ⟨6417, s3, none⟩, .basicLit 6419]], .ret 6423 [.ident ⟨6422, s1, (some 20)⟩]], 2187, 2510⟩
/-- field_assignment.go:99: `func AssignmentToOtherField` -/
def f7 : FuncDef := ⟨6468, some ⟨6426, s20, (some 23)⟩, ⟨[⟨[⟨6427, s13, (some 24)⟩], 6428⟩], (some [⟨[], 6431⟩]), 2614⟩, some [.assign 6441 [.ident
  ⟨6435, s1, (some 25)⟩] [.unary 6440 true (.compositeLit 6439 [.basicLit 6437, .basicLit 6438])], .other 6464 [.other 6463 [.caseClause 6448
  [.ident ⟨6442, s2, none⟩] [.assign 6447 [.selector 6445 (.ident ⟨6443, s1, (some 25)⟩) ⟨6444, s21, none⟩] [.basicLit 6446]], .caseClause 6455
  [.ident ⟨6449, s2, none⟩] [.assign 6454 [.selector 6452 (.ident ⟨6450, s1, (some 25)⟩) ⟨6451, s21, none⟩] [.ident ⟨6453, s13, (some 24)⟩]],
  .caseClause 6462 [.ident ⟨6456, s2, none⟩] [.assign 6461 [.selector 6459 (.ident ⟨6457, s1, (some 25)⟩) ⟨6458, s3, none⟩] [.basicLit 6460]]]],
  .ret 6466 [.ident ⟨6465, s1, (some 25)⟩]], 2620, 2866⟩
/-- field_assignment.go:117: `func ComplicatedAssignment` -/
def f8 : FuncDef := ⟨6515, some ⟨6469, s22, (some 27)⟩, ⟨[], (some [⟨[], 6471⟩]), 2984⟩, some [.assign 6481 [.ident ⟨6475, s23, (some 28)⟩] [.unary
  6480 true (.compositeLit 6479 [.basicLit 6477, .basicLit 6478])], .assign 6484 [.ident ⟨6482, s24, (some 29)⟩] [.ident ⟨6483, s23, (some 28)⟩],
  .assign 6493 [.selector 6487 (.ident ⟨6485, s24, (some 29)⟩) ⟨6486, s3, none⟩, .selector 6490 (.ident ⟨6488, s24, (some 29)⟩) ⟨6489, s3, none⟩]
  [.basicLit 6491, .basicLit 6492], .assign 6498 [.selector 6496 (.ident ⟨6494, s24, (some 29)⟩) ⟨6495, s21, none⟩] [.basicLit 6497], .other 6503
  [.other 6502 [.valueSpec 6501 [⟨6499, s25, (some 30)⟩] (some 6500) []]], .assign 6506 [.ident ⟨6504, s25, (some 30)⟩] [.ident ⟨6505, s24, (some
  29)⟩], .assign 6511 [.ident ⟨6507, s14, (some 31)⟩, .ident ⟨6508, s1, (some 32)⟩] [.basicLit 6509, .ident ⟨6510, s25, (some 30)⟩], .ret 6513
  [.ident ⟨6512, s1, (some 32)⟩]], 2990, 3287⟩
/-- field_assignment.go:132: `func Code` -/
def f9 : FuncDef := ⟨6540, some ⟨6529, s26, none⟩, ⟨[], (some [⟨[], 6531⟩]), 3421⟩, some [.ret 6538 [.selector 6537 (.ident ⟨6535, s27, (some 34)⟩)
  ⟨6536, s3, none⟩]], 3442, 3462⟩
/-- field_assignment.go:133: `func Message` -/
def f10 : FuncDef := ⟨6557, some ⟨6546, s28, none⟩, ⟨[], (some [⟨[], 6548⟩]), 3489⟩, some [.ret 6555 [.selector 6554 (.ident ⟨6552, s27, (some 35)⟩)
  ⟨6553, s3, none⟩]], 3507, 3527⟩
/-- field_assignment.go:134: `func Details` -/
def f11 : FuncDef := ⟨6574, some ⟨6563, s29, none⟩, ⟨[], (some [⟨[], 6567⟩]), 3554⟩, some [.ret 6572 [.ident ⟨6571, s30, none⟩]], 3572, 3586⟩
/-- field_assignment.go:135: `func Cause` -/
def f12 : FuncDef := ⟨6589, some ⟨6580, s31, none⟩, ⟨[], (some [⟨[], 6582⟩]), 3611⟩, some [.ret 6587 [.ident ⟨6586, s30, none⟩]], 3631, 3645⟩
/-- field_assignment.go:136: `func Error` -/
def f13 : FuncDef := ⟨6607, some ⟨6595, s32, none⟩, ⟨[], (some [⟨[], 6597⟩]), 3670⟩, some [.ret 6605 [.call 6604 (.selector 6603 (.ident ⟨6601, s27,
  (some 38)⟩) ⟨6602, s28, none⟩) []]], 3690, 3712⟩
/-- field_assignment.go:142: `func Code` -/
def f14 : FuncDef := ⟨6633, some ⟨6622, s26, none⟩, ⟨[], (some [⟨[], 6624⟩]), 3856⟩, some [.ret 6631 [.selector 6630 (.ident ⟨6628, s27, (some 41)⟩)
  ⟨6629, s3, none⟩]], 3877, 3897⟩
/-- field_assignment.go:143: `func Message` -/
def f15 : FuncDef := ⟨6650, some ⟨6639, s28, none⟩, ⟨[], (some [⟨[], 6641⟩]), 3925⟩, some [.ret 6648 [.selector 6647 (.ident ⟨6645, s27, (some 42)⟩)
  ⟨6646, s3, none⟩]], 3943, 3963⟩
/-- field_assignment.go:144: `func Details` -/
def f16 : FuncDef := ⟨6667, some ⟨6656, s29, none⟩, ⟨[], (some [⟨[], 6660⟩]), 3991⟩, some [.ret 6665 [.ident ⟨6664, s30, none⟩]], 4009, 4023⟩
/-- field_assignment.go:145: `func Cause` -/
def f17 : FuncDef := ⟨6682, some ⟨6673, s31, none⟩, ⟨[], (some [⟨[], 6675⟩]), 4049⟩, some [.ret 6680 [.ident ⟨6679, s30, none⟩]], 4069, 4083⟩
/-- field_assignment.go:146: `func Error` -/
def f18 : FuncDef := ⟨6700, some ⟨6688, s32, none⟩, ⟨[], (some [⟨[], 6690⟩]), 4109⟩, some [.ret 6698 [.call 6697 (.selector 6696 (.ident ⟨6694, s27,
  (some 45)⟩) ⟨6695, s28, none⟩) []]], 4129, 4151⟩
/-- The objects of go/ast, in the order of their numbers. -/
def objects : List ObjInfo := [
  ⟨.fun_, 90, (.funcDecl 0)⟩,
  ⟨.var, 176, .other⟩,
  ⟨.typ, 3294, .typeSpec⟩,
  ⟨.con, 269, (.valueSpec [⟨6189, s5, (some 3)⟩] [.basicLit 6190])⟩,
  ⟨.fun_, 412, (.funcDecl 1)⟩,
  ⟨.var, 558, .other⟩,
  ⟨.con, 667, (.valueSpec [⟨6214, s6, (some 6)⟩] [.basicLit 6215])⟩,
  ⟨.con, 731, (.valueSpec [⟨6226, s7, (some 7)⟩] [.basicLit 6227])⟩,
  ⟨.con, 755, (.valueSpec [⟨6231, s8, (some 8)⟩] [.basicLit 6232])⟩,
  ⟨.fun_, 965, (.funcDecl 2)⟩,
  ⟨.var, 1045, .other⟩,
  ⟨.fun_, 1192, (.funcDecl 3)⟩,
  ⟨.fun_, 1243, (.funcDecl 4)⟩,
  ⟨.fun_, 1364, (.funcDecl 5)⟩,
  ⟨.var, 1388, .other⟩,
  ⟨.var, 1468, .other⟩,
  ⟨.typ, 2068, .typeSpec⟩,
  ⟨.var, 2089, .other⟩,
  ⟨.var, 2097, .other⟩,
  ⟨.fun_, 2155, (.funcDecl 6)⟩,
  ⟨.var, 2247, .other⟩,
  ⟨.var, 2276, .other⟩,
  ⟨.var, 2361, .other⟩,
  ⟨.fun_, 2577, (.funcDecl 7)⟩,
  ⟨.var, 2600, .other⟩,
  ⟨.var, 2691, .other⟩,
  ⟨.typ, 3719, .typeSpec⟩,
  ⟨.fun_, 2960, (.funcDecl 8)⟩,
  ⟨.var, 3076, .other⟩,
  ⟨.var, 3116, .other⟩,
  ⟨.var, 3224, (.valueSpec [⟨6499, s25, (some 30)⟩] [])⟩,
  ⟨.var, 3249, .other⟩,
  ⟨.var, 3252, .other⟩,
  ⟨.var, 3380, .other⟩,
  ⟨.var, 3404, .other⟩,
  ⟨.var, 3469, .other⟩,
  ⟨.var, 3534, .other⟩,
  ⟨.var, 3593, .other⟩,
  ⟨.var, 3652, .other⟩,
  ⟨.var, 3807, .other⟩,
  ⟨.var, 3814, .other⟩,
  ⟨.var, 3838, .other⟩,
  ⟨.var, 3904, .other⟩,
  ⟨.var, 3970, .other⟩,
  ⟨.var, 4030, .other⟩,
  ⟨.var, 4090, .other⟩]
/-- Types of expressions (`Info.Types`, `Info.Defs`, `Info.Uses`). -/
def typeTable : Tree GoType := (.node (.node (.node (.node (.node (.node (.node (.node (.node Tree.nil 6164 (.signature 6) Tree.nil) 6166 (.named
  19) Tree.nil) 6169 (.signature 6) (.node (.node Tree.nil 6170 (.pointer (.named 662)) Tree.nil) 6171 (.named 662) Tree.nil)) 6172 (.string) (.node
  (.node (.node Tree.nil 6173 (.named 662) Tree.nil) 6174 (.pointer (.named 662)) Tree.nil) 6176 (.other 10) (.node Tree.nil 6178 (.pointer (.named
  662)) Tree.nil))) 6179 (.string) (.node (.node (.node (.node Tree.nil 6180 (.string) Tree.nil) 6181 (.string) Tree.nil) 6185 (.pointer (.named
  662)) (.node Tree.nil 6189 (.other 31) Tree.nil)) 6190 (.other 31) (.node (.node (.node Tree.nil 6193 (.signature 6) Tree.nil) 6195 (.named 19)
  Tree.nil) 6198 (.signature 6) (.node Tree.nil 6199 (.named 662) Tree.nil)))) 6200 (.named 662) (.node (.node (.node (.node (.node Tree.nil 6201
  (.string) Tree.nil) 6202 (.named 662) Tree.nil) 6204 (.other 10) (.node Tree.nil 6205 (.named 662) Tree.nil)) 6206 (.string) (.node (.node (.node
  Tree.nil 6207 (.string) Tree.nil) 6208 (.string) Tree.nil) 6209 (.string) (.node Tree.nil 6210 (.string) Tree.nil))) 6213 (.other 10) (.node
  (.node (.node (.node Tree.nil 6214 (.other 31) Tree.nil) 6215 (.other 31) Tree.nil) 6219 (.named 662) (.node Tree.nil 6220 (.string) Tree.nil))
  6221 (.string) (.node (.node (.node Tree.nil 6222 (.string) Tree.nil) 6225 (.other 10) Tree.nil) 6226 (.other 31) (.node Tree.nil 6227 (.other 31)
  Tree.nil))))) 6231 (.other 31) (.node (.node (.node (.node (.node (.node Tree.nil 6232 (.other 31) Tree.nil) 6236 (.named 662) Tree.nil) 6237
  (.string) (.node Tree.nil 6238 (.string) Tree.nil)) 6239 (.string) (.node (.node (.node Tree.nil 6240 (.string) Tree.nil) 6241 (.string) Tree.nil)
  6242 (.string) (.node Tree.nil 6243 (.string) Tree.nil))) 6246 (.other 10) (.node (.node (.node (.node Tree.nil 6247 (.named 662) Tree.nil) 6248
  (.string) Tree.nil) 6249 (.string) (.node Tree.nil 6250 (.string) Tree.nil)) 6255 (.named 662) (.node (.node (.node Tree.nil 6256 (.pointer
  (.named 662)) Tree.nil) 6260 (.signature 6) Tree.nil) 6262 (.named 19) (.node Tree.nil 6265 (.signature 6) Tree.nil)))) 6266 (.pointer (.named
  662)) (.node (.node (.node (.node (.node Tree.nil 6267 (.named 662) Tree.nil) 6268 (.string) Tree.nil) 6269 (.named 662) (.node Tree.nil 6270
  (.pointer (.named 662)) Tree.nil)) 6272 (.other 10) (.node (.node (.node Tree.nil 6274 (.pointer (.named 662)) Tree.nil) 6275 (.string) Tree.nil)
  6276 (.string) (.node Tree.nil 6277 (.string) Tree.nil))) 6281 (.pointer (.named 662)) (.node (.node (.node (.node Tree.nil 6285 (.signature 11)
  Tree.nil) 6287 (.string) Tree.nil) 6290 (.signature 11) (.node Tree.nil 6291 (.string) Tree.nil)) 6295 (.signature 69) (.node (.node (.node
  Tree.nil 6297 (.string) Tree.nil) 6298 (.string) Tree.nil) 6302 (.signature 69) (.node Tree.nil 6303 (.string) Tree.nil)))))) 6304 (.string)
  (.node (.node (.node (.node (.node (.node (.node Tree.nil 6308 (.signature 22) Tree.nil) 6309 (.string) Tree.nil) 6310 (.string) (.node Tree.nil
  6313 (.named 19) Tree.nil)) 6316 (.signature 22) (.node (.node (.node Tree.nil 6317 (.pointer (.named 662)) Tree.nil) 6318 (.named 662) Tree.nil)
  6319 (.string) (.node Tree.nil 6320 (.named 662) Tree.nil))) 6321 (.pointer (.named 662)) (.node (.node (.node (.node Tree.nil 6323 (.other 10)
  Tree.nil) 6324 (.pointer (.named 662)) Tree.nil) 6325 (.string) (.node Tree.nil 6326 (.string) Tree.nil)) 6327 (.string) (.node (.node (.node
  Tree.nil 6330 (.other 10) Tree.nil) 6331 (.pointer (.named 662)) Tree.nil) 6332 (.string) (.node Tree.nil 6333 (.string) Tree.nil)))) 6334
  (.signature 11) (.node (.node (.node (.node (.node Tree.nil 6335 (.string) Tree.nil) 6338 (.other 10) Tree.nil) 6340 (.pointer (.named 662))
  (.node Tree.nil 6341 (.string) Tree.nil)) 6342 (.string) (.node (.node (.node Tree.nil 6343 (.signature 69) Tree.nil) 6344 (.tuple 70) Tree.nil)
  6347 (.other 10) (.node Tree.nil 6348 (.pointer (.named 662)) Tree.nil))) 6349 (.string) (.node (.node (.node (.node Tree.nil 6350 (.string)
  Tree.nil) 6351 (.pointer (.named 662)) Tree.nil) 6352 (.string) (.node Tree.nil 6353 (.string) Tree.nil)) 6354 (.signature 69) (.node (.node
  (.node Tree.nil 6355 (.tuple 70) Tree.nil) 6360 (.pointer (.named 662)) Tree.nil) 6364 (.named 658) (.node Tree.nil 6365 (.string) Tree.nil)))))
  6366 (.string) (.node (.node (.node (.node (.node (.node Tree.nil 6367 (.string) Tree.nil) 6370 (.struct 67) Tree.nil) 6373 (.signature 6) (.node
  Tree.nil 6375 (.named 19) Tree.nil)) 6378 (.signature 6) (.node (.node (.node Tree.nil 6379 (.pointer (.named 662)) Tree.nil) 6380 (.named 662)
  Tree.nil) 6381 (.string) (.node Tree.nil 6382 (.named 662) Tree.nil))) 6383 (.pointer (.named 662)) (.node (.node (.node (.node Tree.nil 6385
  (.pointer (.named 662)) Tree.nil) 6386 (.named 662) Tree.nil) 6387 (.string) (.node Tree.nil 6388 (.named 662) Tree.nil)) 6389 (.pointer (.named
  662)) (.node (.node (.node Tree.nil 6391 (.pointer (.named 662)) Tree.nil) 6392 (.string) Tree.nil) 6393 (.string) (.node Tree.nil 6394 (.string)
  Tree.nil)))) 6396 (.named 658) (.node (.node (.node (.node (.node Tree.nil 6397 (.named 658) Tree.nil) 6398 (.string) Tree.nil) 6399 (.string)
  (.node Tree.nil 6400 (.named 658) Tree.nil)) 6402 (.pointer (.named 662)) (.node (.node (.node Tree.nil 6403 (.string) Tree.nil) 6404 (.string)
  Tree.nil) 6405 (.named 658) (.node Tree.nil 6406 (.string) Tree.nil))) 6407 (.string) (.node (.node (.node (.node Tree.nil 6408 (.named 658)
  Tree.nil) 6409 (.string) Tree.nil) 6410 (.string) (.node Tree.nil 6411 (.string) Tree.nil)) 6413 (.named 658) (.node (.node (.node Tree.nil 6414
  (.string) Tree.nil) 6415 (.string) Tree.nil) 6416 (.pointer (.named 662)) (.node Tree.nil 6417 (.string) Tree.nil))))))) 6418 (.string) (.node
  (.node (.node (.node (.node (.node (.node (.node Tree.nil 6419 (.string) Tree.nil) 6420 (.string) Tree.nil) 6422 (.pointer (.named 662)) (.node
  Tree.nil 6426 (.signature 22) Tree.nil)) 6427 (.string) (.node (.node (.node Tree.nil 6428 (.string) Tree.nil) 6431 (.named 19) Tree.nil) 6434
  (.signature 22) (.node Tree.nil 6435 (.pointer (.named 668)) Tree.nil))) 6436 (.named 668) (.node (.node (.node (.node Tree.nil 6437 (.string)
  Tree.nil) 6438 (.string) Tree.nil) 6439 (.named 668) (.node Tree.nil 6440 (.pointer (.named 668)) Tree.nil)) 6442 (.other 10) (.node (.node (.node
  Tree.nil 6443 (.pointer (.named 668)) Tree.nil) 6444 (.string) Tree.nil) 6445 (.string) (.node Tree.nil 6446 (.string) Tree.nil)))) 6449 (.other
  10) (.node (.node (.node (.node (.node Tree.nil 6450 (.pointer (.named 668)) Tree.nil) 6451 (.string) Tree.nil) 6452 (.string) (.node Tree.nil
  6453 (.string) Tree.nil)) 6456 (.other 10) (.node (.node (.node Tree.nil 6457 (.pointer (.named 668)) Tree.nil) 6458 (.string) Tree.nil) 6459
  (.string) (.node Tree.nil 6460 (.string) Tree.nil))) 6465 (.pointer (.named 668)) (.node (.node (.node (.node Tree.nil 6469 (.signature 6)
  Tree.nil) 6471 (.named 19) Tree.nil) 6474 (.signature 6) (.node Tree.nil 6475 (.pointer (.named 668)) Tree.nil)) 6476 (.named 668) (.node (.node
  (.node Tree.nil 6477 (.string) Tree.nil) 6478 (.string) Tree.nil) 6479 (.named 668) (.node Tree.nil 6480 (.pointer (.named 668)) Tree.nil)))))
  6482 (.pointer (.named 668)) (.node (.node (.node (.node (.node (.node Tree.nil 6483 (.pointer (.named 668)) Tree.nil) 6485 (.pointer (.named
  668)) Tree.nil) 6486 (.string) (.node Tree.nil 6487 (.string) Tree.nil)) 6488 (.pointer (.named 668)) (.node (.node (.node Tree.nil 6489 (.string)
  Tree.nil) 6490 (.string) Tree.nil) 6491 (.string) (.node Tree.nil 6492 (.string) Tree.nil))) 6494 (.pointer (.named 668)) (.node (.node (.node
  (.node Tree.nil 6495 (.string) Tree.nil) 6496 (.string) Tree.nil) 6497 (.string) (.node Tree.nil 6499 (.named 19) Tree.nil)) 6500 (.named 19)
  (.node (.node (.node Tree.nil 6504 (.named 19) Tree.nil) 6505 (.pointer (.named 668)) Tree.nil) 6507 (.string) (.node Tree.nil 6508 (.named 19)
  Tree.nil)))) 6509 (.string) (.node (.node (.node (.node (.node Tree.nil 6510 (.named 19) Tree.nil) 6512 (.named 19) Tree.nil) 6516 (.named 662)
  (.node Tree.nil 6517 (.string) Tree.nil)) 6518 (.string) (.node (.node (.node Tree.nil 6521 (.struct 1) Tree.nil) 6524 (.pointer (.named 662))
  Tree.nil) 6525 (.named 662) (.node Tree.nil 6526 (.pointer (.named 662)) Tree.nil))) 6529 (.signature 11) (.node (.node (.node (.node Tree.nil
  6531 (.string) Tree.nil) 6534 (.signature 11) Tree.nil) 6535 (.pointer (.named 662)) (.node Tree.nil 6536 (.string) Tree.nil)) 6537 (.string)
  (.node (.node (.node Tree.nil 6541 (.pointer (.named 662)) Tree.nil) 6542 (.named 662) Tree.nil) 6543 (.pointer (.named 662)) (.node Tree.nil 6546
  (.signature 11) Tree.nil)))))) 6548 (.string) (.node (.node (.node (.node (.node (.node (.node Tree.nil 6551 (.signature 11) Tree.nil) 6552
  (.pointer (.named 662)) Tree.nil) 6553 (.string) (.node Tree.nil 6554 (.string) Tree.nil)) 6558 (.pointer (.named 662)) (.node (.node (.node
  Tree.nil 6559 (.named 662) Tree.nil) 6560 (.pointer (.named 662)) Tree.nil) 6563 (.signature 23) (.node Tree.nil 6565 (.string) Tree.nil))) 6566
  (.string) (.node (.node (.node (.node Tree.nil 6567 (.map (.string) (.string)) Tree.nil) 6570 (.signature 23) Tree.nil) 6571 (.untypedNil) (.node
  Tree.nil 6575 (.pointer (.named 662)) Tree.nil)) 6576 (.named 662) (.node (.node (.node Tree.nil 6577 (.pointer (.named 662)) Tree.nil) 6580
  (.signature 6) Tree.nil) 6582 (.named 19) (.node Tree.nil 6585 (.signature 6) Tree.nil)))) 6586 (.untypedNil) (.node (.node (.node (.node (.node
  Tree.nil 6590 (.pointer (.named 662)) Tree.nil) 6591 (.named 662) Tree.nil) 6592 (.pointer (.named 662)) (.node Tree.nil 6595 (.signature 11)
  Tree.nil)) 6597 (.string) (.node (.node (.node Tree.nil 6600 (.signature 11) Tree.nil) 6601 (.pointer (.named 662)) Tree.nil) 6602 (.signature 11)
  (.node Tree.nil 6603 (.signature 11) Tree.nil))) 6604 (.string) (.node (.node (.node (.node Tree.nil 6608 (.named 668) Tree.nil) 6609 (.string)
  Tree.nil) 6610 (.string) (.node Tree.nil 6611 (.string) Tree.nil)) 6614 (.struct 68) (.node (.node (.node Tree.nil 6617 (.pointer (.named 668))
  Tree.nil) 6618 (.named 668) Tree.nil) 6619 (.pointer (.named 668)) (.node Tree.nil 6622 (.signature 11) Tree.nil))))) 6624 (.string) (.node (.node
  (.node (.node (.node (.node Tree.nil 6627 (.signature 11) Tree.nil) 6628 (.pointer (.named 668)) Tree.nil) 6629 (.string) (.node Tree.nil 6630
  (.string) Tree.nil)) 6634 (.pointer (.named 668)) (.node (.node (.node Tree.nil 6635 (.named 668) Tree.nil) 6636 (.pointer (.named 668)) Tree.nil)
  6639 (.signature 11) (.node Tree.nil 6641 (.string) Tree.nil))) 6644 (.signature 11) (.node (.node (.node (.node Tree.nil 6645 (.pointer (.named
  668)) Tree.nil) 6646 (.string) Tree.nil) 6647 (.string) (.node Tree.nil 6651 (.pointer (.named 668)) Tree.nil)) 6652 (.named 668) (.node (.node
  (.node Tree.nil 6653 (.pointer (.named 668)) Tree.nil) 6656 (.signature 23) Tree.nil) 6658 (.string) (.node Tree.nil 6659 (.string) Tree.nil))))
  6660 (.map (.string) (.string)) (.node (.node (.node (.node (.node Tree.nil 6663 (.signature 23) Tree.nil) 6664 (.untypedNil) Tree.nil) 6668
  (.pointer (.named 668)) (.node Tree.nil 6669 (.named 668) Tree.nil)) 6670 (.pointer (.named 668)) (.node (.node (.node Tree.nil 6673 (.signature
  6) Tree.nil) 6675 (.named 19) Tree.nil) 6678 (.signature 6) (.node Tree.nil 6679 (.untypedNil) Tree.nil))) 6683 (.pointer (.named 668)) (.node
  (.node (.node (.node Tree.nil 6684 (.named 668) Tree.nil) 6685 (.pointer (.named 668)) Tree.nil) 6688 (.signature 11) (.node Tree.nil 6690
  (.string) Tree.nil)) 6693 (.signature 11) (.node (.node (.node Tree.nil 6694 (.pointer (.named 668)) Tree.nil) 6695 (.signature 11) Tree.nil) 6696
  (.signature 11) (.node Tree.nil 6697 (.string) Tree.nil))))))))
/-- Constant values of expressions. -/
def valueTable : Tree Const := (.node (.node (.node (.node (.node (.node Tree.nil 6172 (.str s33) Tree.nil) 6176 (.other) (.node Tree.nil 6181 (.str
  s34) Tree.nil)) 6190 (.str s35) (.node (.node Tree.nil 6201 (.str s33) Tree.nil) 6204 (.other) Tree.nil)) 6208 (.str s37) (.node (.node (.node
  Tree.nil 6209 (.str s35) Tree.nil) 6210 (.str s36) (.node Tree.nil 6213 (.other) Tree.nil)) 6215 (.str s38) (.node (.node Tree.nil 6222 (.str s38)
  Tree.nil) 6225 (.other) Tree.nil))) 6227 (.str s17) (.node (.node (.node (.node Tree.nil 6232 (.str s39) Tree.nil) 6239 (.str s17) (.node Tree.nil
  6240 (.str s39) Tree.nil)) 6241 (.str s41) (.node (.node Tree.nil 6242 (.str s35) Tree.nil) 6243 (.str s40) Tree.nil)) 6246 (.other) (.node (.node
  (.node Tree.nil 6250 (.str s42) Tree.nil) 6268 (.str s33) Tree.nil) 6272 (.other) (.node (.node Tree.nil 6277 (.str s43) Tree.nil) 6291 (.str s44)
  Tree.nil)))) 6303 (.str s44) (.node (.node (.node (.node (.node Tree.nil 6304 (.str s45) Tree.nil) 6319 (.str s33) (.node Tree.nil 6323 (.other)
  Tree.nil)) 6330 (.other) (.node (.node Tree.nil 6338 (.other) Tree.nil) 6347 (.other) Tree.nil)) 6381 (.str s33) (.node (.node (.node Tree.nil
  6387 (.str s46) Tree.nil) 6394 (.str s47) Tree.nil) 6398 (.str s48) (.node (.node Tree.nil 6399 (.str s49) Tree.nil) 6419 (.str s50) Tree.nil)))
  6437 (.str s51) (.node (.node (.node (.node Tree.nil 6438 (.str s33) Tree.nil) 6442 (.other) (.node Tree.nil 6446 (.str s52) Tree.nil)) 6449
  (.other) (.node (.node Tree.nil 6456 (.other) Tree.nil) 6460 (.str s34) Tree.nil)) 6477 (.str s17) (.node (.node (.node Tree.nil 6478 (.str s33)
  Tree.nil) 6491 (.str s36) Tree.nil) 6492 (.str s38) (.node (.node Tree.nil 6497 (.str s53) Tree.nil) 6509 (.str s54) Tree.nil)))))
/-- `typeutil.Callee` of call expressions. -/
def calleeTable : Tree Nat := (.node (.node (.node Tree.nil 6335 (655) Tree.nil) 6344 (656) Tree.nil) 6355 (656) (.node (.node Tree.nil 6604 (664)
  Tree.nil) 6697 (670) Tree.nil))
/-- `Info.Uses`. -/
def usesTable : Tree Nat := (.node (.node (.node (.node (.node (.node (.node (.node Tree.nil 6166 (19) Tree.nil) 6171 (662) Tree.nil) 6176 (21)
  (.node Tree.nil 6178 (679) Tree.nil)) 6179 (105) (.node (.node Tree.nil 6185 (679) Tree.nil) 6195 (19) (.node Tree.nil 6200 (662) Tree.nil))) 6204
  (21) (.node (.node (.node (.node Tree.nil 6205 (680) Tree.nil) 6206 (105) Tree.nil) 6209 (652) (.node Tree.nil 6213 (21) Tree.nil)) 6219 (680)
  (.node (.node Tree.nil 6220 (105) Tree.nil) 6222 (681) (.node Tree.nil 6225 (21) Tree.nil)))) 6236 (680) (.node (.node (.node (.node (.node
  Tree.nil 6237 (105) Tree.nil) 6239 (682) Tree.nil) 6240 (683) (.node Tree.nil 6242 (652) Tree.nil)) 6246 (21) (.node (.node Tree.nil 6247 (680)
  Tree.nil) 6248 (105) (.node Tree.nil 6255 (680) Tree.nil))) 6262 (19) (.node (.node (.node (.node Tree.nil 6267 (662) Tree.nil) 6272 (21)
  Tree.nil) 6274 (684) (.node Tree.nil 6275 (105) Tree.nil)) 6281 (684) (.node (.node Tree.nil 6287 (16) Tree.nil) 6297 (16) (.node Tree.nil 6298
  (16) Tree.nil))))) 6310 (16) (.node (.node (.node (.node (.node (.node Tree.nil 6313 (19) Tree.nil) 6318 (662) Tree.nil) 6323 (21) (.node Tree.nil
  6324 (686) Tree.nil)) 6325 (105) (.node (.node Tree.nil 6327 (685) Tree.nil) 6330 (21) (.node Tree.nil 6331 (686) Tree.nil))) 6332 (105) (.node
  (.node (.node (.node Tree.nil 6334 (655) Tree.nil) 6338 (21) Tree.nil) 6340 (686) (.node Tree.nil 6341 (105) Tree.nil)) 6343 (656) (.node (.node
  Tree.nil 6347 (21) Tree.nil) 6348 (686) (.node Tree.nil 6349 (105) Tree.nil)))) 6351 (686) (.node (.node (.node (.node (.node Tree.nil 6352 (105)
  Tree.nil) 6354 (656) Tree.nil) 6360 (686) (.node Tree.nil 6367 (16) Tree.nil)) 6375 (19) (.node (.node Tree.nil 6380 (662) Tree.nil) 6386 (662)
  (.node Tree.nil 6391 (688) Tree.nil))) 6392 (105) (.node (.node (.node (.node Tree.nil 6397 (658) Tree.nil) 6402 (688) Tree.nil) 6403 (105) (.node
  Tree.nil 6405 (689) Tree.nil)) 6406 (690) (.node (.node Tree.nil 6408 (689) Tree.nil) 6409 (691) (.node Tree.nil 6413 (689) Tree.nil)))))) 6414
  (691) (.node (.node (.node (.node (.node (.node (.node Tree.nil 6416 (688) Tree.nil) 6417 (105) Tree.nil) 6422 (687) (.node Tree.nil 6428 (16)
  Tree.nil)) 6431 (19) (.node (.node Tree.nil 6436 (668) Tree.nil) 6442 (21) (.node Tree.nil 6443 (693) Tree.nil))) 6444 (694) (.node (.node (.node
  (.node Tree.nil 6449 (21) Tree.nil) 6450 (693) Tree.nil) 6451 (694) (.node Tree.nil 6453 (692) Tree.nil)) 6456 (21) (.node (.node Tree.nil 6457
  (693) Tree.nil) 6458 (695) (.node Tree.nil 6465 (693) Tree.nil)))) 6471 (19) (.node (.node (.node (.node (.node Tree.nil 6476 (668) Tree.nil) 6483
  (696) Tree.nil) 6485 (697) (.node Tree.nil 6486 (695) Tree.nil)) 6488 (697) (.node (.node Tree.nil 6489 (695) Tree.nil) 6494 (697) (.node Tree.nil
  6495 (694) Tree.nil))) 6500 (19) (.node (.node (.node (.node Tree.nil 6504 (698) Tree.nil) 6505 (697) Tree.nil) 6510 (698) (.node Tree.nil 6512
  (700) Tree.nil)) 6518 (16) (.node (.node Tree.nil 6525 (662) Tree.nil) 6531 (16) (.node Tree.nil 6535 (701) Tree.nil))))) 6536 (105) (.node (.node
  (.node (.node (.node (.node Tree.nil 6542 (662) Tree.nil) 6548 (16) Tree.nil) 6552 (702) (.node Tree.nil 6553 (105) Tree.nil)) 6559 (662) (.node
  (.node Tree.nil 6565 (16) Tree.nil) 6566 (16) (.node Tree.nil 6571 (23) Tree.nil))) 6576 (662) (.node (.node (.node (.node Tree.nil 6582 (19)
  Tree.nil) 6586 (23) Tree.nil) 6591 (662) (.node Tree.nil 6597 (16) Tree.nil)) 6601 (705) (.node (.node Tree.nil 6602 (664) Tree.nil) 6611 (16)
  (.node Tree.nil 6618 (668) Tree.nil)))) 6624 (16) (.node (.node (.node (.node (.node Tree.nil 6628 (706) Tree.nil) 6629 (695) Tree.nil) 6635 (668)
  (.node Tree.nil 6641 (16) Tree.nil)) 6645 (707) (.node (.node Tree.nil 6646 (695) Tree.nil) 6652 (668) (.node Tree.nil 6658 (16) Tree.nil))) 6659
  (16) (.node (.node (.node (.node Tree.nil 6664 (23) Tree.nil) 6669 (668) Tree.nil) 6675 (19) (.node Tree.nil 6679 (23) Tree.nil)) 6684 (668)
  (.node (.node Tree.nil 6690 (16) Tree.nil) 6694 (710) (.node Tree.nil 6695 (670) Tree.nil)))))))
/-- `Info.Selections`. -/
def selectionTable : Tree (GoType × Nat) := (.node (.node (.node (.node (.node Tree.nil 6180 ((.pointer (.named 662), 105)) Tree.nil) 6207 ((.named
  662, 105)) (.node Tree.nil 6221 ((.named 662, 105)) Tree.nil)) 6238 ((.named 662, 105)) (.node (.node Tree.nil 6249 ((.named 662, 105)) Tree.nil)
  6276 ((.pointer (.named 662), 105)) (.node Tree.nil 6326 ((.pointer (.named 662), 105)) Tree.nil))) 6333 ((.pointer (.named 662), 105)) (.node
  (.node (.node Tree.nil 6342 ((.pointer (.named 662), 105)) Tree.nil) 6350 ((.pointer (.named 662), 105)) (.node Tree.nil 6353 ((.pointer (.named
  662), 105)) Tree.nil)) 6393 ((.pointer (.named 662), 105)) (.node (.node Tree.nil 6404 ((.pointer (.named 662), 105)) Tree.nil) 6407 ((.named 658,
  690)) Tree.nil))) 6410 ((.named 658, 691)) (.node (.node (.node (.node Tree.nil 6415 ((.named 658, 691)) Tree.nil) 6418 ((.pointer (.named 662),
  105)) (.node Tree.nil 6445 ((.pointer (.named 668), 694)) Tree.nil)) 6452 ((.pointer (.named 668), 694)) (.node (.node Tree.nil 6459 ((.pointer
  (.named 668), 695)) Tree.nil) 6487 ((.pointer (.named 668), 695)) (.node Tree.nil 6490 ((.pointer (.named 668), 695)) Tree.nil))) 6496 ((.pointer
  (.named 668), 694)) (.node (.node (.node Tree.nil 6537 ((.pointer (.named 662), 105)) Tree.nil) 6554 ((.pointer (.named 662), 105)) (.node
  Tree.nil 6603 ((.pointer (.named 662), 664)) Tree.nil)) 6630 ((.pointer (.named 668), 695)) (.node (.node Tree.nil 6647 ((.pointer (.named 668),
  695)) Tree.nil) 6696 ((.pointer (.named 668), 670)) Tree.nil))))
/-- Identifiers that are names of imported packages. -/
def pkgNameTable : Tree GoString := Tree.nil
/-- Method sets. -/
def methodSetTable : Tree (List (GoString × Nat)) := (.node (.node (.node Tree.nil 27 ([(s32, 1386)]) Tree.nil) 95 ([(s32, 20)]) Tree.nil) 3311
  ([(s31, 666), (s26, 663), (s29, 665), (s32, 667), (s28, 664)]) (.node Tree.nil 3341 ([(s31, 672), (s26, 669), (s29, 671), (s32, 673), (s28, 670)])
  Tree.nil))
/-- Types implementing `error`. -/
def implErrorTable : Tree Unit := (.node (.node (.node Tree.nil 27 (()) Tree.nil) 95 (()) Tree.nil) 3311 (()) (.node Tree.nil 3341 (()) Tree.nil))
/-- Types implementing `error` with a code. -/
def implCodeTable : Tree Unit := (.node (.node Tree.nil 3311 (()) Tree.nil) 3341 (()) Tree.nil)
/-- Types implementing `error` with a cause. -/
def implCauseTable : Tree Unit := (.node (.node Tree.nil 3311 (()) Tree.nil) 3341 (()) Tree.nil)
/-- Signatures: types of parameters, variadic, number of results. -/
def sigTable : Tree (List GoType × Bool × Nat) := (.node (.node (.node Tree.nil 6 (([], false, 1)) Tree.nil) 11 (([], false, 1)) Tree.nil) 22
  (([.string], false, 1)) (.node (.node Tree.nil 23 (([], false, 1)) Tree.nil) 69 (([], false, 2)) Tree.nil))
/-- Tuples of results. -/
def tupleTable : Tree (List GoType) := (.node Tree.nil 70 ([.string, .string]) Tree.nil)
/-- Fields of structs. -/
def structTable : Tree (List (GoString × GoType)) := (.node (.node Tree.nil 1 ([(s3, .string)]) Tree.nil) 67 ([(s18, .string), (s19, .string)])
  (.node Tree.nil 68 ([(s21, .string), (s3, .string)]) Tree.nil))
/-- Underlying types of named types. -/
def underlyingTable : Tree GoType := (.node (.node (.node Tree.nil 19 (.interface 5) Tree.nil) 658 (.struct 67) Tree.nil) 662 (.struct 1) (.node
  Tree.nil 668 (.struct 68) Tree.nil))
/-- Which types implement which interfaces. -/
def implTable : Tree (Tree Unit) := (.node Tree.nil 5 ((.node (.node (.node Tree.nil 27 (()) Tree.nil) 95 (()) Tree.nil) 3311 (()) (.node Tree.nil
  3341 (()) Tree.nil))) Tree.nil)
/-- Comments at return statements (`ast.NewCommentMap`). -/
def commentTable : Tree (List (List GoString)) := Tree.nil
/-- Function declarations. -/
def declTable : Tree DeclInfo := (.node (.node (.node (.node (.node Tree.nil 0 (⟨s0, true, none, some (CommentText.text [s55, s56, s57, s58]), 6188,
  651, []⟩) Tree.nil) 1 (⟨s4, true, none, some (CommentText.text [s55, s56, s59, s60, s61, s62]), 6259, 653, []⟩) Tree.nil) 2 (⟨s9, true, none, some
  (CommentText.text [s55, s56, s63]), 6284, 654, []⟩) (.node Tree.nil 3 (⟨s10, false, none, none, 6294, 655, []⟩) Tree.nil)) 4 (⟨s11, false, none,
  none, 6307, 656, []⟩) (.node (.node (.node Tree.nil 5 (⟨s12, true, none, some (CommentText.text [s55, s56, s63]), 6363, 657, []⟩) Tree.nil) 6
  (⟨s15, true, none, some (CommentText.text [s55, s56, s63]), 6425, 659, []⟩) Tree.nil) 7 (⟨s20, true, none, some (CommentText.text [s55, s56, s57,
  s58]), 6468, 660, []⟩) (.node Tree.nil 8 (⟨s22, true, none, some (CommentText.text [s55, s56, s57, s60, s61]), 6515, 661, []⟩) Tree.nil))) 9
  (⟨s26, true, some 6526, none, 6540, 663, [⟨6524, s27, (some 34)⟩]⟩) (.node (.node (.node (.node Tree.nil 10 (⟨s28, true, some 6543, none, 6557,
  664, [⟨6541, s27, (some 35)⟩]⟩) Tree.nil) 11 (⟨s29, true, some 6560, none, 6574, 665, [⟨6558, s27, (some 36)⟩]⟩) Tree.nil) 12 (⟨s31, true, some
  6577, none, 6589, 666, [⟨6575, s27, (some 37)⟩]⟩) (.node Tree.nil 13 (⟨s32, true, some 6592, none, 6607, 667, [⟨6590, s27, (some 38)⟩]⟩)
  Tree.nil)) 14 (⟨s26, true, some 6619, none, 6633, 669, [⟨6617, s27, (some 41)⟩]⟩) (.node (.node (.node Tree.nil 15 (⟨s28, true, some 6636, none,
  6650, 670, [⟨6634, s27, (some 42)⟩]⟩) Tree.nil) 16 (⟨s29, true, some 6653, none, 6667, 671, [⟨6651, s27, (some 43)⟩]⟩) Tree.nil) 17 (⟨s31, true,
  some 6670, none, 6682, 672, [⟨6668, s27, (some 44)⟩]⟩) (.node Tree.nil 18 (⟨s32, true, some 6685, none, 6700, 673, [⟨6683, s27, (some 45)⟩]⟩)
  Tree.nil))))
/-- Named interfaces. -/
def interfaceTable : Tree Unit := (.node Tree.nil 19 (()) Tree.nil)
/-- Methods of named types. -/
def methodNameTable : Tree (List GoString) := (.node (.node Tree.nil 662 ([s26, s28, s29, s31, s32]) Tree.nil) 668 ([s26, s28, s29, s31, s32])
  Tree.nil)
/-- Objects of interface methods. -/
def methodObjTable : Tree Nat := Tree.nil
/-- Syntax and types of the package, and the facts exported by the packages it imports. -/
def env : Env where
  funcs := [f0, f1, f2, f3, f4, f5, f6, f7, f8, f9, f10, f11, f12, f13, f14, f15, f16, f17, f18]
  objects := objects
  typeOf := fun n => (typeTable.find n).getD (.other 0)
  value := valueTable.find
  callee := calleeTable.find
  uses := usesTable.find
  selection := selectionTable.find
  pkgName := pkgNameTable.find
  funcObj := fun f => ((declTable.find f).map (·.obj)).getD 0
  implError := fun t => has implErrorTable t
  implCode := fun t => has implCodeTable t
  sigResults := fun n => ((sigTable.find n).map (·.2.2)).getD 0
  methodSet := fun t name => ((typeKey t).bind methodSetTable.find).bind fun l => lookup name l
  functions := fun _ => none
  methods := fun _ => []
  comments := fun n => ((commentTable.find n).getD []).map CommentText.text
  isPrint := fun r => 32 ≤ r && r < 127
  facts := noFacts
/-- The package. -/
def package : Package where
  env := env
  decls := ⟨fun f => ((declTable.find f).map (·.name)).getD [], fun f => ((declTable.find f).map (·.exported)).getD false,
    fun f => (declTable.find f).bind (·.recv), fun f => (declTable.find f).bind (·.doc), fun t => has implCauseTable t,
    fun f => ((declTable.find f).map (·.pos)).getD 0⟩
  types := ⟨fun f => (((declTable.find f).bind (·.recv)).bind typeTable.find).getD (.other 0),
    fun f => ((declTable.find f).map (·.recvNames)).getD [], fun o => (interfaceTable.find o).isSome,
    fun o => (methodNameTable.find o).getD []⟩
  funcs := [0, 1, 2, 3, 4, 5, 6, 7, 8, 9, 10, 11, 12, 13, 14, 15, 16, 17, 18]
  specs := [⟨6372, .named 658, some [[s18, s19]]⟩, ⟨6523, .named 662, some [[s3]]⟩, ⟨6616, .named 668, some [[s21, s3]]⟩]
  ifaces := []
  methodObj := fun n => (methodObjTable.find n).getD 0
  conv := ⟨fun o => (underlyingTable.find o).getD (.other 0), fun n => ((sigTable.find n).map (·.1)).getD [],
    fun n => ((sigTable.find n).map (·.2.1)).getD false, fun n => (tupleTable.find n).getD [], fun n => (structTable.find n).getD [],
    fun t n => ((implTable.find n).map fun tr => has tr t).getD false⟩
  top := [
    .func 0,
    .node (.other 6192 [.valueSpec 6191 [⟨6189, s5, (some 3)⟩] none [.basicLit 6190]]),
    .func 1,
    .func 2,
    .func 3,
    .func 4,
    .func 5,
    .node (.other 6372 [.other 6371 [.ident ⟨6364, s64, (some 16)⟩, .other 6370 [.other 6369 [.other 6368 [.ident ⟨6365, s18, (some 17)⟩, .ident
  ⟨6366, s19, (some 18)⟩, .ident ⟨6367, s65, none⟩]]]]]),
    .func 6,
    .func 7,
    .func 8,
    .node (.other 6523 [.other 6522 [.ident ⟨6516, s32, (some 2)⟩, .other 6521 [.other 6520 [.other 6519 [.ident ⟨6517, s3, (some 33)⟩, .ident
  ⟨6518, s65, none⟩]]]]]),
    .func 9,
    .func 10,
    .func 11,
    .func 12,
    .func 13,
    .node (.other 6616 [.other 6615 [.ident ⟨6608, s66, (some 26)⟩, .other 6614 [.other 6613 [.other 6612 [.ident ⟨6609, s21, (some 39)⟩, .ident
  ⟨6610, s3, (some 40)⟩, .ident ⟨6611, s65, none⟩]]]]]),
    .func 14,
    .func 15,
    .func 16,
    .func 17,
    .func 18]
/-- The run, in one order. -/
def result : Except Stop Outcome := runVerify package Check.source true
/-- What is expected.  The comments in the package say (with facts as `object: fact`):
```
field_assignment.go:7: EasyAssignment: ErrorCodes: other-error some-error
field_assignment.go:23: ConstantExpressionAssignments: ErrorCodes: other-1-error other-2-error other-3-error some-error
field_assignment.go:44: AssignInvalidCode: ErrorCodes: some-error
field_assignment.go:47: error code has invalid format: should match .*
field_assignment.go:63: AssignInvalidExpression: ErrorCodes: some-error
field_assignment.go:67: require an error code parameter declaration to use "input" as an error code
field_assignment.go:69: error code has to be constant value or error code parameter
field_assignment.go:71: error code has to be constant value or error code parameter
field_assignment.go:73: error code has to be constant value or error code parameter
field_assignment.go:73: error code has to be constant value or error code parameter
field_assignment.go:85: AssignmentsToOtherStuff: ErrorCodes: some-error
field_assignment.go:99: AssignmentToOtherField: ErrorCodes: other-error some-error
field_assignment.go:117: ComplicatedAssignment: ErrorCodes: other-1-error other-2-error some-error
field_assignment.go:128: Error: ErrorType{Field:{Name:"TheCode", Position:0}, Codes:}
field_assignment.go:138: Error2: ErrorType{Field:{Name:"TheCode", Position:1}, Codes:}
``` -/
def expected : Check.Expected where
  tags := []
  ifaces := []
  signatures := []
  claims := []
  bodies := [(2, { at_ := 6277, msg := Serum.Msg.badConstant (Serum.ConstError.format) }),
    (5, { at_ := 6327, msg := Serum.Msg.paramNotDeclared b!"input" }),
    (5, { at_ := 6335, msg := Serum.Msg.notConstant }),
    (5, { at_ := 6344, msg := Serum.Msg.notConstant }),
    (5, { at_ := 6355, msg := Serum.Msg.notConstant }),
    (5, { at_ := 6355, msg := Serum.Msg.notConstant })]
  mismatches := []
  conversions := []
  codes := [(651, [b!"some-error", b!"other-error"]),
    (653, [b!"some-error", b!"other-1-error", b!"other-2-error", b!"other-3-error"]),
    (654, [b!"some-error"]),
    (657, [b!"some-error"]),
    (659, [b!"some-error"]),
    (660, [b!"some-error", b!"other-error"]),
    (661, [b!"some-error", b!"other-1-error", b!"other-2-error"])]
  ctors := []
  errorTypes := [(662, { codes := [], field := some { name := b!"TheCode", position := 0 } }),
    (668, { codes := [], field := some { name := b!"TheCode", position := 1 } })]
  interfaces := []
  objects := 1385

/-- What functions call, and which literals they visit. -/
def graph : Check.Graph :=
  [([], []), ([], []), ([], []), ([], []), ([], []), ([], []), ([], []), ([], []), ([], []), ([], []), ([], []), ([], []), ([], []), ([10],
  []), ([], []), ([], []), ([], []), ([], []), ([15], [])]

theorem checked : Check.run package true expected graph = true := by decide +kernel

theorem imports : Check.Tables package.env.facts := tables_noFacts

theorem exported : Check.Tables (Check.factsOf result) := Check.tables checked imports

/-- The facts known before a run: those exported by some run over the imported packages. -/
def Imported (F : Facts) : Prop :=
  F = noFacts

/-- The facts known after a run. -/
def Exports (F : Facts) : Prop := Check.Exports package Imported true F

theorem imports_same (F : Facts) (h : Imported F) : Props.Run.SameFacts package.env.facts F := by
  obtain rfl := h
  exact (.refl _)

theorem exports_same {F : Facts} (h : Exports F) : Props.Run.SameFacts (Check.factsOf result) F :=
  Check.exports_same checked imports imports_same h

/-- **C54**: every run over the package has the expected result. -/
theorem always : Check.Always package Imported true expected :=
  Check.always checked imports imports_same

/-- For the nodes with diagnostics: file, line, and type of node. -/
def nodes : Tree (GoString × Nat × GoString) :=
  (.node (.node (.node Tree.nil 6277 ((b!"field_assignment.go", 47, b!"BasicLit")) Tree.nil) 6327 ((b!"field_assignment.go", 67, b!"Ident")) Tree.nil) 6335 ((b!"field_assignment.go", 69, b!"CallExpr")) (.node (.node Tree.nil 6344 ((b!"field_assignment.go", 71, b!"CallExpr")) Tree.nil) 6355 ((b!"field_assignment.go", 73, b!"CallExpr")) Tree.nil))

/-- The names of the objects named in diagnostics other than by identifiers. -/
def objectNames : Tree GoString :=
  Tree.nil

def names : Names where
  object := fun o => (objectNames.find o).getD []
  kind := fun n => ((nodes.find n).map fun p => p.2.2).getD []

def place (n : NodeId) : GoString × Nat := ((nodes.find n).map fun p => (p.1, p.2.1)).getD ([], 0)

/-- What is printed: file, line and text. -/
def lines : List Check.Line := [(b!"field_assignment.go", 47, b!"error code has invalid format: should match [a-zA-Z][a-zA-Z0-9\\-]*[a-zA-Z0-9]"),
    (b!"field_assignment.go", 67, b!"require an error code parameter declaration to use \"input\" as an error code"),
    (b!"field_assignment.go", 69, b!"error code has to be constant value or error code parameter"),
    (b!"field_assignment.go", 71, b!"error code has to be constant value or error code parameter"),
    (b!"field_assignment.go", 73, b!"error code has to be constant value or error code parameter"),
    (b!"field_assignment.go", 73, b!"error code has to be constant value or error code parameter")]

/-- **C54**: for every run over the package, these lines are printed. -/
theorem prints : Check.Prints package Imported true names place lines :=
  Check.prints always (by decide +kernel)

end Serum.Testdata.fieldAssignment
