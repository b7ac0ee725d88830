import Verif.Testdata.Support

/-!
# C54: the package analysis/testdata/src/annotation

Generated by `scripts/conformance/testdata.py` from annotation.go, invalid.go.  Numbers of syntax nodes, objects and types are arbitrary.  The tables hold
what `go/parser` and `go/types` say about the package.
-/

set_option maxRecDepth 100000
set_option linter.all false

namespace Serum.Testdata.annotation
open Serum Serum.Testdata

def s0 : GoString := b!"OverwriteReturn1"
def s1 : GoString := b!"OverwriteReturn"
def s2 : GoString := b!"true"
def s3 : GoString := b!"err"
def s4 : GoString := b!"TheCode"
def s5 : GoString := b!"nil"
def s6 : GoString := b!"OverwriteReturn3"
def s7 : GoString := b!"AddReturn1"
def s8 : GoString := b!"AddReturn2"
def s9 : GoString := b!"SubReturn1"
def s10 : GoString := b!"SubReturn2"
def s11 : GoString := b!"AddSubReturn1"
def s12 : GoString := b!"AddSubReturn2"
def s13 : GoString := b!"Code"
def s14 : GoString := b!"e"
def s15 : GoString := b!"Message"
def s16 : GoString := b!"Details"
def s17 : GoString := b!"Cause"
def s18 : GoString := b!"Error"
def s19 : GoString := b!"InvalidOverwriteReturn1"
def s20 : GoString := b!"InvalidOverwriteReturn2"
def s21 : GoString := b!"InvalidAddReturn"
def s22 : GoString := b!"InvalidSubReturn"
def s23 : GoString := b!"InvalidAddSubReturn"
def s24 : GoString := b!"some-error"
def s25 : GoString := b!"some-1-error"
def s26 : GoString := b!"some-2-error"
def s27 : GoString := b!"assigned-error"
def s28 : GoString := b!"unkown-error"
def s29 : GoString := b!"// want OverwriteReturn1:\"ErrorCodes: overwritten-error\""
def s30 : GoString := b!"// Error Codes = overwritten-error"
def s31 : GoString := b!"// Error Codes = overwritten-1-error"
def s32 : GoString := b!"// Error Codes=overwritten-2-error"
def s33 : GoString := b!"// Error Codes = overwritten-3-error, overwritten-4-error, overwritten-3-error"
def s34 : GoString := b!"// want OverwriteReturn3:\"ErrorCodes:\""
def s35 : GoString := b!"// Error Codes ="
def s36 : GoString := b!"// want AddReturn1:\"ErrorCodes: overwritten-error some-error\""
def s37 : GoString := b!"// Error Codes += overwritten-error"
def s38 : GoString := b!"// Error Codes += overwritten-1-error"
def s39 : GoString := b!"// Error Codes+=overwritten-2-error"
def s40 : GoString := b!"// Error Codes += overwritten-3-error, overwritten-4-error, overwritten-3-error"
def s41 : GoString := b!"// want SubReturn1:\"ErrorCodes:\""
def s42 : GoString := b!"// Error Codes -= some-error"
def s43 : GoString := b!"// Error Codes -= overwritten-1-error, some-2-error, some-2-error"
def s44 : GoString := b!"// Error Codes-=assigned-error"
def s45 : GoString := b!"// Error Codes -= overwritten-3-error, overwritten-4-error, overwritten-3-error"
def s46 : GoString := b!"// want AddSubReturn1:\"ErrorCodes: overwritten-error\""
def s47 : GoString := b!"// Error Codes -some-error +overwritten-error"
def s48 : GoString := b!"// Error Codes -overwritten-1-error -some-2-error +added-1-error -some-2-error"
def s49 : GoString := b!"// Error Codes -assigned-error"
def s50 : GoString := b!"// Error Codes -overwritten-3-error -overwritten-4-error -overwritten-3-error"
def s51 : GoString := b!"// Error Codes -overwritten-3-error    +added-2-error    -overwritten-3-error"
def s52 : GoString := b!"// want InvalidOverwriteReturn1:\"ErrorCodes: some-error\""
def s53 : GoString := b!"// Error Codes: overwritten-error"
def s54 : GoString := b!"// want \"error in annotation: expected '=', '\\\\+=', '-=', '\\\\+code', or '-code' after 'Error Codes' indicator\""
def s55 : GoString := b!"// Error Codes = -overwritten-error"
def s56 : GoString := b!"// Error Codes overwritten-error"
def s57 : GoString := b!"// Error Codes = overwritten-error,,other-error"
def s58 : GoString := b!"// Error Codes = overwritten-error,"
def s59 : GoString := b!"// Error Codes += +overwritten-error"
def s60 : GoString := b!"// Error Codes += overwritten-error,,other-error"
def s61 : GoString := b!"// Error Codes += overwritten-error,"
def s62 : GoString := b!"// Error Codes -= +overwritten-error"
def s63 : GoString := b!"// Error Codes -= overwritten-error,,other-error"
def s64 : GoString := b!"// Error Codes -= overwritten-error,"
def s65 : GoString := b!"// Error Codes ++overwritten-error"
def s66 : GoString := b!"// Error Codes -overwritten-error - -other-error"
def s67 : GoString := b!"// Error Codes -overwritten-error other-error"
def s68 : GoString := b!"// Errors:"
def s69 : GoString := b!"//"
def s70 : GoString := b!"//    - overwritten-error -- error forced by annotation"
def s71 : GoString := b!"//    - overwritten-1-error --"
def s72 : GoString := b!"//    - overwritten-2-error --"
def s73 : GoString := b!"//    - overwritten-3-error --"
def s74 : GoString := b!"//    - overwritten-4-error --"
def s75 : GoString := b!"// Errors: none"
def s76 : GoString := b!"//    - some-error        -- found by analysis"
def s77 : GoString := b!"//    - overwritten-error -- forced by annotation"
def s78 : GoString := b!"//    - some-1-error        --"
def s79 : GoString := b!"//    - some-2-error        --"
def s80 : GoString := b!"//    - assigned-error      --"
def s81 : GoString := b!"//    - overwritten-error --"
def s82 : GoString := b!"//    - added-1-error       --"
def s83 : GoString := b!"//    - added-2-error       --"
def s84 : GoString := b!"//    - some-error -- error forced by annotation"
def s85 : GoString := b!"string"
/-- annotation.go:6: `func OverwriteReturn1` -/
def f0 : FuncDef := ⟨989, some ⟨977, s0, (some 0)⟩, ⟨[], (some [⟨[], 979⟩]), 114⟩, some [.ret 987 [.unary 986 true (.compositeLit 985 [.basicLit
  984])]], 120, 245⟩
/-- annotation.go:17: `func OverwriteReturn` -/
def f1 : FuncDef := ⟨1026, some ⟨990, s1, (some 2)⟩, ⟨[], (some [⟨[], 992⟩]), 408⟩, some [.other 1022 [.other 1021 [.caseClause 1002 [.ident ⟨996,
  s2, none⟩] [.ret 1001 [.unary 1000 true (.compositeLit 999 [.basicLit 998])]], .caseClause 1016 [.ident ⟨1003, s2, none⟩] [.assign 1008 [.ident
  ⟨1004, s3, (some 3)⟩] [.unary 1007 true (.compositeLit 1006 [])], .assign 1013 [.selector 1011 (.ident ⟨1009, s3, (some 3)⟩) ⟨1010, s4, none⟩]
  [.basicLit 1012], .ret 1015 [.ident ⟨1014, s3, (some 3)⟩]], .caseClause 1020 [.ident ⟨1017, s2, none⟩] [.ret 1019 [.ident ⟨1018, s5, none⟩]]]],
  .ret 1024 [.ident ⟨1023, s5, none⟩]], 414, 860⟩
/-- annotation.go:35: `func OverwriteReturn3` -/
def f2 : FuncDef := ⟨1039, some ⟨1027, s6, (some 4)⟩, ⟨[], (some [⟨[], 1029⟩]), 902⟩, some [.ret 1037 [.unary 1036 true (.compositeLit 1035
  [.basicLit 1034])]], 908, 997⟩
/-- annotation.go:44: `func AddReturn1` -/
def f3 : FuncDef := ⟨1052, some ⟨1040, s7, (some 5)⟩, ⟨[], (some [⟨[], 1042⟩]), 1128⟩, some [.ret 1050 [.unary 1049 true (.compositeLit 1048
  [.basicLit 1047])]], 1134, 1265⟩
/-- annotation.go:57: `func AddReturn2` -/
def f4 : FuncDef := ⟨1089, some ⟨1053, s8, (some 6)⟩, ⟨[], (some [⟨[], 1055⟩]), 1485⟩, some [.other 1085 [.other 1084 [.caseClause 1065 [.ident
  ⟨1059, s2, none⟩] [.ret 1064 [.unary 1063 true (.compositeLit 1062 [.basicLit 1061])]], .caseClause 1079 [.ident ⟨1066, s2, none⟩] [.assign 1071
  [.ident ⟨1067, s3, (some 7)⟩] [.unary 1070 true (.compositeLit 1069 [])], .assign 1076 [.selector 1074 (.ident ⟨1072, s3, (some 7)⟩) ⟨1073, s4,
  none⟩] [.basicLit 1075], .ret 1078 [.ident ⟨1077, s3, (some 7)⟩]], .caseClause 1083 [.ident ⟨1080, s2, none⟩] [.ret 1082 [.ident ⟨1081, s5,
  none⟩]]]], .ret 1087 [.ident ⟨1086, s5, none⟩]], 1491, 1961⟩
/-- annotation.go:75: `func SubReturn1` -/
def f5 : FuncDef := ⟨1102, some ⟨1090, s9, (some 8)⟩, ⟨[], (some [⟨[], 1092⟩]), 1997⟩, some [.ret 1100 [.unary 1099 true (.compositeLit 1098
  [.basicLit 1097])]], 2003, 2098⟩
/-- annotation.go:87: `func SubReturn2` -/
def f6 : FuncDef := ⟨1151, some ⟨1103, s10, (some 9)⟩, ⟨[], (some [⟨[], 1105⟩]), 2287⟩, some [.other 1147 [.other 1146 [.caseClause 1113 [.ident
  ⟨1109, s2, none⟩] [.ret 1112 [.call 1111 (.ident ⟨1110, s8, (some 6)⟩) []]], .caseClause 1127 [.ident ⟨1114, s2, none⟩] [.assign 1119 [.ident
  ⟨1115, s3, (some 10)⟩] [.unary 1118 true (.compositeLit 1117 [])], .assign 1124 [.selector 1122 (.ident ⟨1120, s3, (some 10)⟩) ⟨1121, s4, none⟩]
  [.basicLit 1123], .ret 1126 [.ident ⟨1125, s3, (some 10)⟩]], .caseClause 1141 [.ident ⟨1128, s2, none⟩] [.assign 1133 [.ident ⟨1129, s3, (some
  11)⟩] [.unary 1132 true (.compositeLit 1131 [])], .assign 1138 [.selector 1136 (.ident ⟨1134, s3, (some 11)⟩) ⟨1135, s4, none⟩] [.basicLit 1137],
  .ret 1140 [.ident ⟨1139, s3, (some 11)⟩]], .caseClause 1145 [.ident ⟨1142, s2, none⟩] [.ret 1144 [.ident ⟨1143, s5, none⟩]]]], .ret 1149 [.ident
  ⟨1148, s5, none⟩]], 2293, 2980⟩
/-- annotation.go:112: `func AddSubReturn1` -/
def f7 : FuncDef := ⟨1164, some ⟨1152, s11, (some 12)⟩, ⟨[], (some [⟨[], 1154⟩]), 3046⟩, some [.ret 1162 [.unary 1161 true (.compositeLit 1160
  [.basicLit 1159])]], 3052, 3185⟩
/-- annotation.go:126: `func AddSubReturn2` -/
def f8 : FuncDef := ⟨1203, some ⟨1165, s12, (some 13)⟩, ⟨[], (some [⟨[], 1167⟩]), 3439⟩, some [.other 1199 [.other 1198 [.caseClause 1175 [.ident
  ⟨1171, s2, none⟩] [.ret 1174 [.call 1173 (.ident ⟨1172, s8, (some 6)⟩) []]], .caseClause 1189 [.ident ⟨1176, s2, none⟩] [.assign 1181 [.ident
  ⟨1177, s3, (some 14)⟩] [.unary 1180 true (.compositeLit 1179 [])], .assign 1186 [.selector 1184 (.ident ⟨1182, s3, (some 14)⟩) ⟨1183, s4, none⟩]
  [.basicLit 1185], .ret 1188 [.ident ⟨1187, s3, (some 14)⟩]], .caseClause 1193 [.ident ⟨1190, s2, none⟩] [.ret 1192 [.ident ⟨1191, s5, none⟩]],
  .caseClause 1197 [.ident ⟨1194, s2, none⟩] [.ret 1196 [.ident ⟨1195, s5, none⟩]]]], .ret 1201 [.ident ⟨1200, s5, none⟩]], 3445, 4146⟩
/-- annotation.go:150: `func Code` -/
def f9 : FuncDef := ⟨1228, some ⟨1217, s13, none⟩, ⟨[], (some [⟨[], 1219⟩]), 4280⟩, some [.ret 1226 [.selector 1225 (.ident ⟨1223, s14, (some 16)⟩)
  ⟨1224, s4, none⟩]], 4301, 4321⟩
/-- annotation.go:151: `func Message` -/
def f10 : FuncDef := ⟨1245, some ⟨1234, s15, none⟩, ⟨[], (some [⟨[], 1236⟩]), 4348⟩, some [.ret 1243 [.selector 1242 (.ident ⟨1240, s14, (some 17)⟩)
  ⟨1241, s4, none⟩]], 4366, 4386⟩
/-- annotation.go:152: `func Details` -/
def f11 : FuncDef := ⟨1262, some ⟨1251, s16, none⟩, ⟨[], (some [⟨[], 1255⟩]), 4413⟩, some [.ret 1260 [.ident ⟨1259, s5, none⟩]], 4431, 4445⟩
/-- annotation.go:153: `func Cause` -/
def f12 : FuncDef := ⟨1277, some ⟨1268, s17, none⟩, ⟨[], (some [⟨[], 1270⟩]), 4470⟩, some [.ret 1275 [.ident ⟨1274, s5, none⟩]], 4490, 4504⟩
/-- annotation.go:154: `func Error` -/
def f13 : FuncDef := ⟨1295, some ⟨1283, s18, none⟩, ⟨[], (some [⟨[], 1285⟩]), 4529⟩, some [.ret 1293 [.call 1292 (.selector 1291 (.ident ⟨1289, s14,
  (some 20)⟩) ⟨1290, s15, none⟩) []]], 4549, 4571⟩
/-- invalid.go:6: `func InvalidOverwriteReturn1` -/
def f14 : FuncDef := ⟨1348, some ⟨1336, s19, (some 21)⟩, ⟨[], (some [⟨[], 1338⟩]), 4696⟩, some [.ret 1346 [.unary 1345 true (.compositeLit 1344
  [.basicLit 1343])]], 4702, 4937⟩
/-- invalid.go:12: `func InvalidOverwriteReturn2` -/
def f15 : FuncDef := ⟨1376, some ⟨1349, s20, (some 22)⟩, ⟨[], (some [⟨[], 1351⟩]), 4986⟩, some [.other 1372 [.other 1371 [.caseClause 1358 [.ident
  ⟨1355, s2, none⟩] [.ret 1357 [.ident ⟨1356, s5, none⟩]], .caseClause 1362 [.ident ⟨1359, s2, none⟩] [.ret 1361 [.ident ⟨1360, s5, none⟩]],
  .caseClause 1366 [.ident ⟨1363, s2, none⟩] [.ret 1365 [.ident ⟨1364, s5, none⟩]], .caseClause 1370 [.ident ⟨1367, s2, none⟩] [.ret 1369 [.ident
  ⟨1368, s5, none⟩]]]], .ret 1374 [.ident ⟨1373, s5, none⟩]], 4992, 5624⟩
/-- invalid.go:31: `func InvalidAddReturn` -/
def f16 : FuncDef := ⟨1400, some ⟨1377, s21, (some 23)⟩, ⟨[], (some [⟨[], 1379⟩]), 5666⟩, some [.other 1396 [.other 1395 [.caseClause 1386 [.ident
  ⟨1383, s2, none⟩] [.ret 1385 [.ident ⟨1384, s5, none⟩]], .caseClause 1390 [.ident ⟨1387, s2, none⟩] [.ret 1389 [.ident ⟨1388, s5, none⟩]],
  .caseClause 1394 [.ident ⟨1391, s2, none⟩] [.ret 1393 [.ident ⟨1392, s5, none⟩]]]], .ret 1398 [.ident ⟨1397, s5, none⟩]], 5672, 6129⟩
/-- invalid.go:47: `func InvalidSubReturn` -/
def f17 : FuncDef := ⟨1424, some ⟨1401, s22, (some 24)⟩, ⟨[], (some [⟨[], 1403⟩]), 6171⟩, some [.other 1420 [.other 1419 [.caseClause 1410 [.ident
  ⟨1407, s2, none⟩] [.ret 1409 [.ident ⟨1408, s5, none⟩]], .caseClause 1414 [.ident ⟨1411, s2, none⟩] [.ret 1413 [.ident ⟨1412, s5, none⟩]],
  .caseClause 1418 [.ident ⟨1415, s2, none⟩] [.ret 1417 [.ident ⟨1416, s5, none⟩]]]], .ret 1422 [.ident ⟨1421, s5, none⟩]], 6177, 6634⟩
/-- invalid.go:63: `func InvalidAddSubReturn` -/
def f18 : FuncDef := ⟨1448, some ⟨1425, s23, (some 25)⟩, ⟨[], (some [⟨[], 1427⟩]), 6679⟩, some [.other 1444 [.other 1443 [.caseClause 1434 [.ident
  ⟨1431, s2, none⟩] [.ret 1433 [.ident ⟨1432, s5, none⟩]], .caseClause 1438 [.ident ⟨1435, s2, none⟩] [.ret 1437 [.ident ⟨1436, s5, none⟩]],
  .caseClause 1442 [.ident ⟨1439, s2, none⟩] [.ret 1441 [.ident ⟨1440, s5, none⟩]]]], .ret 1446 [.ident ⟨1445, s5, none⟩]], 6685, 7170⟩
/-- The objects of go/ast, in the order of their numbers. -/
def objects : List ObjInfo := [
  ⟨.fun_, 95, (.funcDecl 0)⟩,
  ⟨.typ, 4153, .typeSpec⟩,
  ⟨.fun_, 390, (.funcDecl 1)⟩,
  ⟨.var, 641, .other⟩,
  ⟨.fun_, 883, (.funcDecl 2)⟩,
  ⟨.fun_, 1115, (.funcDecl 3)⟩,
  ⟨.fun_, 1472, (.funcDecl 4)⟩,
  ⟨.var, 1740, .other⟩,
  ⟨.fun_, 1984, (.funcDecl 5)⟩,
  ⟨.fun_, 2274, (.funcDecl 6)⟩,
  ⟨.var, 2542, .other⟩,
  ⟨.var, 2778, .other⟩,
  ⟨.fun_, 3030, (.funcDecl 7)⟩,
  ⟨.fun_, 3423, (.funcDecl 8)⟩,
  ⟨.var, 3738, .other⟩,
  ⟨.var, 4239, .other⟩,
  ⟨.var, 4263, .other⟩,
  ⟨.var, 4328, .other⟩,
  ⟨.var, 4393, .other⟩,
  ⟨.var, 4452, .other⟩,
  ⟨.var, 4511, .other⟩,
  ⟨.fun_, 4670, (.funcDecl 14)⟩,
  ⟨.fun_, 4960, (.funcDecl 15)⟩,
  ⟨.fun_, 5647, (.funcDecl 16)⟩,
  ⟨.fun_, 6152, (.funcDecl 17)⟩,
  ⟨.fun_, 6657, (.funcDecl 18)⟩]
/-- Types of expressions (`Info.Types`, `Info.Defs`, `Info.Uses`). -/
def typeTable : Tree GoType := (.node (.node (.node (.node (.node (.node (.node (.node Tree.nil 977 (.signature 6) Tree.nil) 979 (.named 19) (.node
  Tree.nil 982 (.signature 6) Tree.nil)) 983 (.named 136) (.node (.node Tree.nil 984 (.string) Tree.nil) 985 (.named 136) (.node Tree.nil 986
  (.pointer (.named 136)) Tree.nil))) 990 (.signature 6) (.node (.node (.node Tree.nil 992 (.named 19) Tree.nil) 995 (.signature 6) (.node Tree.nil
  996 (.other 10) Tree.nil)) 997 (.named 136) (.node (.node Tree.nil 998 (.string) Tree.nil) 999 (.named 136) Tree.nil))) 1000 (.pointer (.named
  136)) (.node (.node (.node (.node Tree.nil 1003 (.other 10) Tree.nil) 1004 (.pointer (.named 136)) (.node Tree.nil 1005 (.named 136) Tree.nil))
  1006 (.named 136) (.node (.node Tree.nil 1007 (.pointer (.named 136)) Tree.nil) 1009 (.pointer (.named 136)) Tree.nil)) 1010 (.string) (.node
  (.node (.node Tree.nil 1011 (.string) Tree.nil) 1012 (.string) (.node Tree.nil 1014 (.pointer (.named 136)) Tree.nil)) 1017 (.other 10) (.node
  (.node Tree.nil 1018 (.untypedNil) Tree.nil) 1023 (.untypedNil) Tree.nil)))) 1027 (.signature 6) (.node (.node (.node (.node (.node Tree.nil 1029
  (.named 19) Tree.nil) 1032 (.signature 6) (.node Tree.nil 1033 (.named 136) Tree.nil)) 1034 (.string) (.node (.node Tree.nil 1035 (.named 136)
  Tree.nil) 1036 (.pointer (.named 136)) Tree.nil)) 1040 (.signature 6) (.node (.node (.node Tree.nil 1042 (.named 19) Tree.nil) 1045 (.signature 6)
  (.node Tree.nil 1046 (.named 136) Tree.nil)) 1047 (.string) (.node (.node Tree.nil 1048 (.named 136) Tree.nil) 1049 (.pointer (.named 136))
  Tree.nil))) 1053 (.signature 6) (.node (.node (.node (.node Tree.nil 1055 (.named 19) Tree.nil) 1058 (.signature 6) (.node Tree.nil 1059 (.other
  10) Tree.nil)) 1060 (.named 136) (.node (.node Tree.nil 1061 (.string) Tree.nil) 1062 (.named 136) Tree.nil)) 1063 (.pointer (.named 136)) (.node
  (.node (.node Tree.nil 1066 (.other 10) Tree.nil) 1067 (.pointer (.named 136)) (.node Tree.nil 1068 (.named 136) Tree.nil)) 1069 (.named 136)
  (.node (.node Tree.nil 1070 (.pointer (.named 136)) Tree.nil) 1072 (.pointer (.named 136)) Tree.nil))))) 1073 (.string) (.node (.node (.node
  (.node (.node (.node Tree.nil 1074 (.string) Tree.nil) 1075 (.string) (.node Tree.nil 1077 (.pointer (.named 136)) Tree.nil)) 1080 (.other 10)
  (.node (.node Tree.nil 1081 (.untypedNil) Tree.nil) 1086 (.untypedNil) Tree.nil)) 1090 (.signature 6) (.node (.node (.node Tree.nil 1092 (.named
  19) Tree.nil) 1095 (.signature 6) (.node Tree.nil 1096 (.named 136) Tree.nil)) 1097 (.string) (.node (.node Tree.nil 1098 (.named 136) Tree.nil)
  1099 (.pointer (.named 136)) Tree.nil))) 1103 (.signature 6) (.node (.node (.node (.node Tree.nil 1105 (.named 19) Tree.nil) 1108 (.signature 6)
  (.node Tree.nil 1109 (.other 10) Tree.nil)) 1110 (.signature 6) (.node (.node Tree.nil 1111 (.named 19) Tree.nil) 1114 (.other 10) Tree.nil)) 1115
  (.pointer (.named 136)) (.node (.node (.node Tree.nil 1116 (.named 136) Tree.nil) 1117 (.named 136) (.node Tree.nil 1118 (.pointer (.named 136))
  Tree.nil)) 1120 (.pointer (.named 136)) (.node (.node Tree.nil 1121 (.string) Tree.nil) 1122 (.string) Tree.nil)))) 1123 (.string) (.node (.node
  (.node (.node (.node Tree.nil 1125 (.pointer (.named 136)) Tree.nil) 1128 (.other 10) (.node Tree.nil 1129 (.pointer (.named 136)) Tree.nil)) 1130
  (.named 136) (.node (.node Tree.nil 1131 (.named 136) Tree.nil) 1132 (.pointer (.named 136)) Tree.nil)) 1134 (.pointer (.named 136)) (.node (.node
  (.node Tree.nil 1135 (.string) Tree.nil) 1136 (.string) (.node Tree.nil 1137 (.string) Tree.nil)) 1139 (.pointer (.named 136)) (.node (.node
  Tree.nil 1142 (.other 10) Tree.nil) 1143 (.untypedNil) Tree.nil))) 1148 (.untypedNil) (.node (.node (.node (.node Tree.nil 1152 (.signature 6)
  Tree.nil) 1154 (.named 19) (.node Tree.nil 1157 (.signature 6) Tree.nil)) 1158 (.named 136) (.node (.node Tree.nil 1159 (.string) Tree.nil) 1160
  (.named 136) Tree.nil)) 1161 (.pointer (.named 136)) (.node (.node (.node Tree.nil 1165 (.signature 6) Tree.nil) 1167 (.named 19) (.node Tree.nil
  1170 (.signature 6) Tree.nil)) 1171 (.other 10) (.node (.node Tree.nil 1172 (.signature 6) Tree.nil) 1173 (.named 19) Tree.nil)))))) 1176 (.other
  10) (.node (.node (.node (.node (.node (.node (.node Tree.nil 1177 (.pointer (.named 136)) Tree.nil) 1178 (.named 136) (.node Tree.nil 1179
  (.named 136) Tree.nil)) 1180 (.pointer (.named 136)) (.node (.node Tree.nil 1182 (.pointer (.named 136)) Tree.nil) 1183 (.string) Tree.nil)) 1184
  (.string) (.node (.node (.node Tree.nil 1185 (.string) Tree.nil) 1187 (.pointer (.named 136)) (.node Tree.nil 1190 (.other 10) Tree.nil)) 1191
  (.untypedNil) (.node (.node Tree.nil 1194 (.other 10) Tree.nil) 1195 (.untypedNil) Tree.nil))) 1200 (.untypedNil) (.node (.node (.node (.node
  Tree.nil 1204 (.named 136) Tree.nil) 1205 (.string) (.node Tree.nil 1206 (.string) Tree.nil)) 1209 (.struct 1) (.node (.node Tree.nil 1212
  (.pointer (.named 136)) Tree.nil) 1213 (.named 136) Tree.nil)) 1214 (.pointer (.named 136)) (.node (.node (.node Tree.nil 1217 (.signature 11)
  Tree.nil) 1219 (.string) (.node Tree.nil 1222 (.signature 11) Tree.nil)) 1223 (.pointer (.named 136)) (.node (.node Tree.nil 1224 (.string)
  Tree.nil) 1225 (.string) Tree.nil)))) 1229 (.pointer (.named 136)) (.node (.node (.node (.node (.node Tree.nil 1230 (.named 136) Tree.nil) 1231
  (.pointer (.named 136)) (.node Tree.nil 1234 (.signature 11) Tree.nil)) 1236 (.string) (.node (.node Tree.nil 1239 (.signature 11) Tree.nil) 1240
  (.pointer (.named 136)) Tree.nil)) 1241 (.string) (.node (.node (.node Tree.nil 1242 (.string) Tree.nil) 1246 (.pointer (.named 136)) (.node
  Tree.nil 1247 (.named 136) Tree.nil)) 1248 (.pointer (.named 136)) (.node (.node Tree.nil 1251 (.signature 23) Tree.nil) 1253 (.string)
  Tree.nil))) 1254 (.string) (.node (.node (.node (.node Tree.nil 1255 (.map (.string) (.string)) Tree.nil) 1258 (.signature 23) (.node Tree.nil
  1259 (.untypedNil) Tree.nil)) 1263 (.pointer (.named 136)) (.node (.node Tree.nil 1264 (.named 136) Tree.nil) 1265 (.pointer (.named 136))
  Tree.nil)) 1268 (.signature 6) (.node (.node (.node Tree.nil 1270 (.named 19) Tree.nil) 1273 (.signature 6) (.node Tree.nil 1274 (.untypedNil)
  Tree.nil)) 1278 (.pointer (.named 136)) (.node (.node Tree.nil 1279 (.named 136) Tree.nil) 1280 (.pointer (.named 136)) Tree.nil))))) 1283
  (.signature 11) (.node (.node (.node (.node (.node (.node Tree.nil 1285 (.string) Tree.nil) 1288 (.signature 11) (.node Tree.nil 1289 (.pointer
  (.named 136)) Tree.nil)) 1290 (.signature 11) (.node (.node Tree.nil 1291 (.signature 11) Tree.nil) 1292 (.string) Tree.nil)) 1336 (.signature 6)
  (.node (.node (.node Tree.nil 1338 (.named 19) Tree.nil) 1341 (.signature 6) (.node Tree.nil 1342 (.named 136) Tree.nil)) 1343 (.string) (.node
  (.node Tree.nil 1344 (.named 136) Tree.nil) 1345 (.pointer (.named 136)) Tree.nil))) 1349 (.signature 6) (.node (.node (.node (.node Tree.nil 1351
  (.named 19) Tree.nil) 1354 (.signature 6) (.node Tree.nil 1355 (.other 10) Tree.nil)) 1356 (.untypedNil) (.node (.node Tree.nil 1359 (.other 10)
  Tree.nil) 1360 (.untypedNil) Tree.nil)) 1363 (.other 10) (.node (.node (.node Tree.nil 1364 (.untypedNil) Tree.nil) 1367 (.other 10) (.node
  Tree.nil 1368 (.untypedNil) Tree.nil)) 1373 (.untypedNil) (.node (.node Tree.nil 1377 (.signature 6) Tree.nil) 1379 (.named 19) Tree.nil)))) 1382
  (.signature 6) (.node (.node (.node (.node (.node Tree.nil 1383 (.other 10) Tree.nil) 1384 (.untypedNil) (.node Tree.nil 1387 (.other 10)
  Tree.nil)) 1388 (.untypedNil) (.node (.node Tree.nil 1391 (.other 10) Tree.nil) 1392 (.untypedNil) Tree.nil)) 1397 (.untypedNil) (.node (.node
  (.node Tree.nil 1401 (.signature 6) Tree.nil) 1403 (.named 19) (.node Tree.nil 1406 (.signature 6) Tree.nil)) 1407 (.other 10) (.node (.node
  Tree.nil 1408 (.untypedNil) Tree.nil) 1411 (.other 10) Tree.nil))) 1412 (.untypedNil) (.node (.node (.node (.node Tree.nil 1415 (.other 10)
  Tree.nil) 1416 (.untypedNil) (.node Tree.nil 1421 (.untypedNil) Tree.nil)) 1425 (.signature 6) (.node (.node Tree.nil 1427 (.named 19) Tree.nil)
  1430 (.signature 6) Tree.nil)) 1431 (.other 10) (.node (.node (.node Tree.nil 1432 (.untypedNil) Tree.nil) 1435 (.other 10) (.node Tree.nil 1436
  (.untypedNil) Tree.nil)) 1439 (.other 10) (.node (.node Tree.nil 1440 (.untypedNil) Tree.nil) 1445 (.untypedNil) Tree.nil)))))))
/-- Constant values of expressions. -/
def valueTable : Tree Const := (.node (.node (.node (.node (.node (.node Tree.nil 984 (.str s24) Tree.nil) 996 (.other) Tree.nil) 998 (.str s25)
  (.node (.node Tree.nil 1003 (.other) Tree.nil) 1012 (.str s26) Tree.nil)) 1017 (.other) (.node (.node (.node Tree.nil 1034 (.str s24) Tree.nil)
  1047 (.str s24) Tree.nil) 1059 (.other) (.node Tree.nil 1061 (.str s25) Tree.nil))) 1066 (.other) (.node (.node (.node (.node Tree.nil 1075 (.str
  s26) Tree.nil) 1080 (.other) Tree.nil) 1097 (.str s24) (.node Tree.nil 1109 (.other) Tree.nil)) 1114 (.other) (.node (.node (.node Tree.nil 1123
  (.str s27) Tree.nil) 1128 (.other) Tree.nil) 1137 (.str s28) (.node Tree.nil 1142 (.other) Tree.nil)))) 1159 (.str s24) (.node (.node (.node
  (.node (.node Tree.nil 1171 (.other) Tree.nil) 1176 (.other) Tree.nil) 1185 (.str s27) (.node Tree.nil 1190 (.other) Tree.nil)) 1194 (.other)
  (.node (.node (.node Tree.nil 1343 (.str s24) Tree.nil) 1355 (.other) Tree.nil) 1359 (.other) (.node Tree.nil 1363 (.other) Tree.nil))) 1367
  (.other) (.node (.node (.node (.node Tree.nil 1383 (.other) Tree.nil) 1387 (.other) Tree.nil) 1391 (.other) (.node Tree.nil 1407 (.other)
  Tree.nil)) 1411 (.other) (.node (.node (.node Tree.nil 1415 (.other) Tree.nil) 1431 (.other) Tree.nil) 1435 (.other) (.node Tree.nil 1439 (.other)
  Tree.nil)))))
/-- `typeutil.Callee` of call expressions. -/
def calleeTable : Tree Nat := (.node (.node Tree.nil 1111 (131) Tree.nil) 1173 (131) (.node Tree.nil 1292 (138) Tree.nil))
/-- `Info.Uses`. -/
def usesTable : Tree Nat := (.node (.node (.node (.node (.node (.node (.node Tree.nil 979 (19) Tree.nil) 983 (136) (.node Tree.nil 992 (19)
  Tree.nil)) 996 (21) (.node (.node Tree.nil 997 (136) Tree.nil) 1003 (21) (.node Tree.nil 1005 (136) Tree.nil))) 1009 (148) (.node (.node (.node
  Tree.nil 1010 (105) Tree.nil) 1014 (148) (.node Tree.nil 1017 (21) Tree.nil)) 1018 (23) (.node (.node Tree.nil 1023 (23) Tree.nil) 1029 (19)
  Tree.nil))) 1033 (136) (.node (.node (.node (.node Tree.nil 1042 (19) Tree.nil) 1046 (136) (.node Tree.nil 1055 (19) Tree.nil)) 1059 (21) (.node
  (.node Tree.nil 1060 (136) Tree.nil) 1066 (21) (.node Tree.nil 1068 (136) Tree.nil))) 1072 (149) (.node (.node (.node Tree.nil 1073 (105)
  Tree.nil) 1077 (149) (.node Tree.nil 1080 (21) Tree.nil)) 1081 (23) (.node (.node Tree.nil 1086 (23) Tree.nil) 1092 (19) Tree.nil)))) 1096 (136)
  (.node (.node (.node (.node (.node Tree.nil 1105 (19) Tree.nil) 1109 (21) (.node Tree.nil 1110 (131) Tree.nil)) 1114 (21) (.node (.node Tree.nil
  1116 (136) Tree.nil) 1120 (150) (.node Tree.nil 1121 (105) Tree.nil))) 1125 (150) (.node (.node (.node Tree.nil 1128 (21) Tree.nil) 1130 (136)
  (.node Tree.nil 1134 (151) Tree.nil)) 1135 (105) (.node (.node Tree.nil 1139 (151) Tree.nil) 1142 (21) Tree.nil))) 1143 (23) (.node (.node (.node
  (.node Tree.nil 1148 (23) Tree.nil) 1154 (19) (.node Tree.nil 1158 (136) Tree.nil)) 1167 (19) (.node (.node Tree.nil 1171 (21) Tree.nil) 1172
  (131) Tree.nil)) 1176 (21) (.node (.node (.node Tree.nil 1178 (136) Tree.nil) 1182 (152) (.node Tree.nil 1183 (105) Tree.nil)) 1187 (152) (.node
  (.node Tree.nil 1190 (21) Tree.nil) 1191 (23) Tree.nil))))) 1194 (21) (.node (.node (.node (.node (.node (.node Tree.nil 1195 (23) Tree.nil) 1200
  (23) (.node Tree.nil 1206 (16) Tree.nil)) 1213 (136) (.node (.node Tree.nil 1219 (16) Tree.nil) 1223 (153) (.node Tree.nil 1224 (105) Tree.nil)))
  1230 (136) (.node (.node (.node Tree.nil 1236 (16) Tree.nil) 1240 (154) (.node Tree.nil 1241 (105) Tree.nil)) 1247 (136) (.node (.node Tree.nil
  1253 (16) Tree.nil) 1254 (16) Tree.nil))) 1259 (23) (.node (.node (.node (.node Tree.nil 1264 (136) Tree.nil) 1270 (19) (.node Tree.nil 1274 (23)
  Tree.nil)) 1279 (136) (.node (.node Tree.nil 1285 (16) Tree.nil) 1289 (157) (.node Tree.nil 1290 (138) Tree.nil))) 1338 (19) (.node (.node (.node
  Tree.nil 1342 (136) Tree.nil) 1351 (19) (.node Tree.nil 1355 (21) Tree.nil)) 1356 (23) (.node (.node Tree.nil 1359 (21) Tree.nil) 1360 (23)
  Tree.nil)))) 1363 (21) (.node (.node (.node (.node (.node Tree.nil 1364 (23) Tree.nil) 1367 (21) (.node Tree.nil 1368 (23) Tree.nil)) 1373 (23)
  (.node (.node Tree.nil 1379 (19) Tree.nil) 1383 (21) (.node Tree.nil 1384 (23) Tree.nil))) 1387 (21) (.node (.node (.node Tree.nil 1388 (23)
  Tree.nil) 1391 (21) (.node Tree.nil 1392 (23) Tree.nil)) 1397 (23) (.node (.node Tree.nil 1403 (19) Tree.nil) 1407 (21) Tree.nil))) 1408 (23)
  (.node (.node (.node (.node Tree.nil 1411 (21) Tree.nil) 1412 (23) (.node Tree.nil 1415 (21) Tree.nil)) 1416 (23) (.node (.node Tree.nil 1421 (23)
  Tree.nil) 1427 (19) Tree.nil)) 1431 (21) (.node (.node (.node Tree.nil 1432 (23) Tree.nil) 1435 (21) (.node Tree.nil 1436 (23) Tree.nil)) 1439
  (21) (.node (.node Tree.nil 1440 (23) Tree.nil) 1445 (23) Tree.nil))))))
/-- `Info.Selections`. -/
def selectionTable : Tree (GoType × Nat) := (.node (.node (.node (.node Tree.nil 1011 ((.pointer (.named 136), 105)) Tree.nil) 1074 ((.pointer
  (.named 136), 105)) Tree.nil) 1122 ((.pointer (.named 136), 105)) (.node Tree.nil 1136 ((.pointer (.named 136), 105)) Tree.nil)) 1184 ((.pointer
  (.named 136), 105)) (.node (.node Tree.nil 1225 ((.pointer (.named 136), 105)) Tree.nil) 1242 ((.pointer (.named 136), 105)) (.node Tree.nil 1291
  ((.pointer (.named 136), 138)) Tree.nil)))
/-- Identifiers that are names of imported packages. -/
def pkgNameTable : Tree GoString := Tree.nil
/-- Method sets. -/
def methodSetTable : Tree (List (GoString × Nat)) := (.node (.node Tree.nil 27 ([(s18, 1386)]) Tree.nil) 95 ([(s18, 20)]) (.node Tree.nil 681
  ([(s17, 140), (s13, 137), (s16, 139), (s18, 141), (s15, 138)]) Tree.nil))
/-- Types implementing `error`. -/
def implErrorTable : Tree Unit := (.node (.node Tree.nil 27 (()) Tree.nil) 95 (()) (.node Tree.nil 681 (()) Tree.nil))
/-- Types implementing `error` with a code. -/
def implCodeTable : Tree Unit := (.node Tree.nil 681 (()) Tree.nil)
/-- Types implementing `error` with a cause. -/
def implCauseTable : Tree Unit := (.node Tree.nil 681 (()) Tree.nil)
/-- Signatures: types of parameters, variadic, number of results. -/
def sigTable : Tree (List GoType × Bool × Nat) := (.node (.node Tree.nil 6 (([], false, 1)) Tree.nil) 11 (([], false, 1)) (.node Tree.nil 23 (([],
  false, 1)) Tree.nil))
/-- Tuples of results. -/
def tupleTable : Tree (List GoType) := Tree.nil
/-- Fields of structs. -/
def structTable : Tree (List (GoString × GoType)) := (.node Tree.nil 1 ([(s4, .string)]) Tree.nil)
/-- Underlying types of named types. -/
def underlyingTable : Tree GoType := (.node (.node Tree.nil 19 (.interface 5) Tree.nil) 136 (.struct 1) Tree.nil)
/-- Which types implement which interfaces. -/
def implTable : Tree (Tree Unit) := (.node Tree.nil 5 ((.node (.node Tree.nil 27 (()) Tree.nil) 95 (()) (.node Tree.nil 681 (()) Tree.nil))) Tree.nil)
/-- Comments at return statements (`ast.NewCommentMap`). -/
def commentTable : Tree (List (List GoString)) := (.node (.node (.node (.node (.node (.node Tree.nil 987 ([[s29], [s30]]) Tree.nil) 1001 ([[s31]])
  Tree.nil) 1015 ([[s32]]) (.node Tree.nil 1019 ([[s33]]) Tree.nil)) 1037 ([[s34], [s35]]) (.node (.node Tree.nil 1050 ([[s36], [s37]]) Tree.nil)
  1064 ([[s38]]) (.node Tree.nil 1078 ([[s39]]) Tree.nil))) 1082 ([[s40]]) (.node (.node (.node Tree.nil 1100 ([[s41], [s42]]) Tree.nil) 1112
  ([[s43]]) (.node Tree.nil 1126 ([[s44]]) Tree.nil)) 1140 ([[s35]]) (.node (.node Tree.nil 1144 ([[s45]]) Tree.nil) 1162 ([[s46], [s47]]) (.node
  Tree.nil 1174 ([[s48]]) Tree.nil)))) 1188 ([[s49]]) (.node (.node (.node (.node (.node Tree.nil 1192 ([[s50]]) Tree.nil) 1196 ([[s51]]) Tree.nil)
  1346 ([[s52], [s53], [s54]]) (.node Tree.nil 1357 ([[s55]]) Tree.nil)) 1361 ([[s56]]) (.node (.node Tree.nil 1365 ([[s57]]) Tree.nil) 1369
  ([[s58]]) (.node Tree.nil 1385 ([[s59]]) Tree.nil))) 1389 ([[s60]]) (.node (.node (.node Tree.nil 1393 ([[s61]]) Tree.nil) 1409 ([[s62]]) (.node
  Tree.nil 1413 ([[s63]]) Tree.nil)) 1417 ([[s64]]) (.node (.node Tree.nil 1433 ([[s65]]) Tree.nil) 1437 ([[s66]]) (.node Tree.nil 1441 ([[s67]])
  Tree.nil)))))
/-- Function declarations. -/
def declTable : Tree DeclInfo := (.node (.node (.node (.node (.node Tree.nil 0 (⟨s0, true, none, some (CommentText.text [s68, s69, s70]), 989, 127,
  []⟩) Tree.nil) 1 (⟨s1, true, none, some (CommentText.text [s68, s69, s71, s72, s73, s74]), 1026, 128, []⟩) Tree.nil) 2 (⟨s6, true, none, some
  (CommentText.text [s75]), 1039, 129, []⟩) (.node Tree.nil 3 (⟨s7, true, none, some (CommentText.text [s68, s69, s76, s77]), 1052, 130, []⟩)
  Tree.nil)) 4 (⟨s8, true, none, some (CommentText.text [s68, s69, s78, s79, s71, s72, s73, s74]), 1089, 131, []⟩) (.node (.node (.node Tree.nil 5
  (⟨s9, true, none, some (CommentText.text [s75]), 1102, 132, []⟩) Tree.nil) 6 (⟨s10, true, none, some (CommentText.text [s68, s69, s80, s78, s72,
  s73, s74]), 1151, 133, []⟩) Tree.nil) 7 (⟨s11, true, none, some (CommentText.text [s68, s69, s81]), 1164, 134, []⟩) (.node Tree.nil 8 (⟨s12, true,
  none, some (CommentText.text [s68, s69, s82, s83, s80, s78, s72, s73, s74]), 1203, 135, []⟩) Tree.nil))) 9 (⟨s13, true, some 1214, none, 1228,
  137, [⟨1212, s14, (some 16)⟩]⟩) (.node (.node (.node (.node Tree.nil 10 (⟨s15, true, some 1231, none, 1245, 138, [⟨1229, s14, (some 17)⟩]⟩)
  Tree.nil) 11 (⟨s16, true, some 1248, none, 1262, 139, [⟨1246, s14, (some 18)⟩]⟩) Tree.nil) 12 (⟨s17, true, some 1265, none, 1277, 140, [⟨1263,
  s14, (some 19)⟩]⟩) (.node Tree.nil 13 (⟨s18, true, some 1280, none, 1295, 141, [⟨1278, s14, (some 20)⟩]⟩) Tree.nil)) 14 (⟨s19, true, none, some
  (CommentText.text [s68, s69, s84]), 1348, 142, []⟩) (.node (.node (.node Tree.nil 15 (⟨s20, true, none, some (CommentText.text [s75]), 1376, 143,
  []⟩) Tree.nil) 16 (⟨s21, true, none, some (CommentText.text [s75]), 1400, 144, []⟩) Tree.nil) 17 (⟨s22, true, none, some (CommentText.text [s75]),
  1424, 145, []⟩) (.node Tree.nil 18 (⟨s23, true, none, some (CommentText.text [s75]), 1448, 146, []⟩) Tree.nil))))
/-- Named interfaces. -/
def interfaceTable : Tree Unit := (.node Tree.nil 19 (()) Tree.nil)
/-- Methods of named types. -/
def methodNameTable : Tree (List GoString) := (.node Tree.nil 136 ([s13, s15, s16, s17, s18]) Tree.nil)
/-- Objects of interface methods. -/
def methodObjTable : Tree Nat := Tree.nil
/-- Syntax and types of the package, and the facts exported by the packages it imports. -/
def env : Env where
  funcs := [f0, f1, f2, f3, f4, f5, f6, f7, f8, f9, f10, f11, f12, f13, f14, f15, f16, f17, f18]
  objects := objects
  typeOf := fun n => (typeTable.find n).getD (.other 0)
  value := valueTable.find
  callee := calleeTable.find
  uses := usesTable.find
  selection := selectionTable.find
  pkgName := pkgNameTable.find
  funcObj := fun f => ((declTable.find f).map (·.obj)).getD 0
  implError := fun t => has implErrorTable t
  implCode := fun t => has implCodeTable t
  sigResults := fun n => ((sigTable.find n).map (·.2.2)).getD 0
  methodSet := fun t name => ((typeKey t).bind methodSetTable.find).bind fun l => lookup name l
  functions := fun _ => none
  methods := fun _ => []
  comments := fun n => ((commentTable.find n).getD []).map CommentText.text
  isPrint := fun r => 32 ≤ r && r < 127
  facts := noFacts
/-- The package. -/
def package : Package where
  env := env
  decls := ⟨fun f => ((declTable.find f).map (·.name)).getD [], fun f => ((declTable.find f).map (·.exported)).getD false,
    fun f => (declTable.find f).bind (·.recv), fun f => (declTable.find f).bind (·.doc), fun t => has implCauseTable t,
    fun f => ((declTable.find f).map (·.pos)).getD 0⟩
  types := ⟨fun f => (((declTable.find f).bind (·.recv)).bind typeTable.find).getD (.other 0),
    fun f => ((declTable.find f).map (·.recvNames)).getD [], fun o => (interfaceTable.find o).isSome,
    fun o => (methodNameTable.find o).getD []⟩
  funcs := [0, 1, 2, 3, 4, 5, 6, 7, 8, 9, 10, 11, 12, 13, 14, 15, 16, 17, 18]
  specs := [⟨1211, .named 136, some [[s4]]⟩]
  ifaces := []
  methodObj := fun n => (methodObjTable.find n).getD 0
  conv := ⟨fun o => (underlyingTable.find o).getD (.other 0), fun n => ((sigTable.find n).map (·.1)).getD [],
    fun n => ((sigTable.find n).map (·.2.1)).getD false, fun n => (tupleTable.find n).getD [], fun n => (structTable.find n).getD [],
    fun t n => ((implTable.find n).map fun tr => has tr t).getD false⟩
  top := [
    .func 0,
    .func 1,
    .func 2,
    .func 3,
    .func 4,
    .func 5,
    .func 6,
    .func 7,
    .func 8,
    .node (.other 1211 [.other 1210 [.ident ⟨1204, s18, (some 1)⟩, .other 1209 [.other 1208 [.other 1207 [.ident ⟨1205, s4, (some 15)⟩, .ident
  ⟨1206, s85, none⟩]]]]]),
    .func 9,
    .func 10,
    .func 11,
    .func 12,
    .func 13,
    .func 14,
    .func 15,
    .func 16,
    .func 17,
    .func 18]
/-- The run, in one order. -/
def result : Except Stop Outcome := runVerify package Check.source true
/-- What is expected.  The comments in the package say (with facts as `object: fact`):
```
annotation.go:6: OverwriteReturn1: ErrorCodes: overwritten-error
annotation.go:17: OverwriteReturn: ErrorCodes: overwritten-1-error overwritten-2-error overwritten-3-error overwritten-4-error
annotation.go:35: OverwriteReturn3: ErrorCodes:
annotation.go:44: AddReturn1: ErrorCodes: overwritten-error some-error
annotation.go:57: AddReturn2: ErrorCodes: overwritten-1-error overwritten-2-error overwritten-3-error overwritten-4-error some-1-error some-2-error
annotation.go:75: SubReturn1: ErrorCodes:
annotation.go:87: SubReturn2: ErrorCodes: assigned-error overwritten-2-error overwritten-3-error overwritten-4-error some-1-error
annotation.go:112: AddSubReturn1: ErrorCodes: overwritten-error
annotation.go:126: AddSubReturn2: ErrorCodes: added-1-error added-2-error assigned-error overwritten-2-error overwritten-3-error overwritten-4-error some-1-error
annotation.go:146: Error: ErrorType{Field:{Name:"TheCode", Position:0}, Codes:}
invalid.go:6: InvalidOverwriteReturn1: ErrorCodes: some-error
invalid.go:8: error in annotation: expected '=', '\+=', '-=', '\+code', or '-code' after 'Error Codes' indicator
invalid.go:12: InvalidOverwriteReturn2: ErrorCodes:
invalid.go:16: invalid error code in annotation: should match (.*)
invalid.go:19: error in annotation: expected '=', '\+=', '-=', '\+code', or '-code' after 'Error Codes' indicator
invalid.go:22: invalid error code in annotation: should match (.*)
invalid.go:25: invalid error code in annotation: should match (.*)
invalid.go:31: InvalidAddReturn: ErrorCodes:
invalid.go:35: invalid error code in annotation: should match (.*)
invalid.go:38: invalid error code in annotation: should match (.*)
invalid.go:41: invalid error code in annotation: should match (.*)
invalid.go:47: InvalidSubReturn: ErrorCodes:
invalid.go:51: invalid error code in annotation: should match (.*)
invalid.go:54: invalid error code in annotation: should match (.*)
invalid.go:57: invalid error code in annotation: should match (.*)
invalid.go:63: InvalidAddSubReturn: ErrorCodes:
invalid.go:67: invalid error code in annotation: should match (.*)
invalid.go:70: invalid error code in annotation: should match (.*)
invalid.go:73: invalid error code in annotation: code has to start with '\+' or '-'
``` -/
def expected : Check.Expected where
  tags := []
  ifaces := []
  signatures := []
  claims := []
  bodies := [(14, { at_ := 1346, msg := Serum.Msg.annotation (Serum.AnnDiag.expectedOp) }),
    (15, { at_ := 1357, msg := Serum.Msg.annotation (Serum.AnnDiag.invalidCode) }),
    (15, { at_ := 1361, msg := Serum.Msg.annotation (Serum.AnnDiag.expectedOp) }),
    (15, { at_ := 1365, msg := Serum.Msg.annotation (Serum.AnnDiag.invalidCode) }),
    (15, { at_ := 1369, msg := Serum.Msg.annotation (Serum.AnnDiag.invalidCode) }),
    (16, { at_ := 1385, msg := Serum.Msg.annotation (Serum.AnnDiag.invalidCode) }),
    (16, { at_ := 1389, msg := Serum.Msg.annotation (Serum.AnnDiag.invalidCode) }),
    (16, { at_ := 1393, msg := Serum.Msg.annotation (Serum.AnnDiag.invalidCode) }),
    (17, { at_ := 1409, msg := Serum.Msg.annotation (Serum.AnnDiag.invalidCode) }),
    (17, { at_ := 1413, msg := Serum.Msg.annotation (Serum.AnnDiag.invalidCode) }),
    (17, { at_ := 1417, msg := Serum.Msg.annotation (Serum.AnnDiag.invalidCode) }),
    (18, { at_ := 1433, msg := Serum.Msg.annotation (Serum.AnnDiag.invalidCode) }),
    (18, { at_ := 1437, msg := Serum.Msg.annotation (Serum.AnnDiag.invalidCode) }),
    (18, { at_ := 1441, msg := Serum.Msg.annotation (Serum.AnnDiag.badSign) })]
  mismatches := []
  conversions := []
  codes := [(127, [b!"overwritten-error"]),
    (128, [b!"overwritten-1-error", b!"overwritten-2-error", b!"overwritten-3-error", b!"overwritten-4-error"]),
    (129, []),
    (130, [b!"some-error", b!"overwritten-error"]),
    (131, [b!"some-1-error", b!"some-2-error", b!"overwritten-1-error", b!"overwritten-2-error", b!"overwritten-3-error", b!"overwritten-4-error"]),
    (132, []),
    (133, [b!"assigned-error", b!"some-1-error", b!"overwritten-2-error", b!"overwritten-3-error", b!"overwritten-4-error"]),
    (134, [b!"overwritten-error"]),
    (135, [b!"added-1-error", b!"added-2-error", b!"assigned-error", b!"some-1-error", b!"overwritten-2-error", b!"overwritten-3-error", b!"overwritten-4-error"]),
    (142, [b!"some-error"]),
    (143, []),
    (144, []),
    (145, []),
    (146, [])]
  ctors := []
  errorTypes := [(136, { codes := [], field := some { name := b!"TheCode", position := 0 } })]
  interfaces := []
  objects := 1385

/-- What functions call, and which literals they visit. -/
def graph : Check.Graph :=
  [([], []), ([], []), ([], []), ([], []), ([], []), ([], []), ([4], []), ([], []), ([4], []), ([], []), ([], []), ([], []), ([], []), ([10],
  []), ([], []), ([], []), ([], []), ([], []), ([], [])]

theorem checked : Check.run package true expected graph = true := by decide +kernel

theorem imports : Check.Tables package.env.facts := tables_noFacts

theorem exported : Check.Tables (Check.factsOf result) := Check.tables checked imports

/-- The facts known before a run: those exported by some run over the imported packages. -/
def Imported (F : Facts) : Prop :=
  F = noFacts

/-- The facts known after a run. -/
def Exports (F : Facts) : Prop := Check.Exports package Imported true F

theorem imports_same (F : Facts) (h : Imported F) : Props.Run.SameFacts package.env.facts F := by
  obtain rfl := h
  exact (.refl _)

theorem exports_same {F : Facts} (h : Exports F) : Props.Run.SameFacts (Check.factsOf result) F :=
  Check.exports_same checked imports imports_same h

/-- **C54**: every run over the package has the expected result. -/
theorem always : Check.Always package Imported true expected :=
  Check.always checked imports imports_same

/-- For the nodes with diagnostics: file, line, and type of node. -/
def nodes : Tree (GoString × Nat × GoString) :=
  (.node (.node (.node (.node Tree.nil 1346 ((b!"invalid.go", 8, b!"ReturnStmt")) Tree.nil) 1357 ((b!"invalid.go", 16, b!"ReturnStmt")) (.node Tree.nil 1361 ((b!"invalid.go", 19, b!"ReturnStmt")) Tree.nil)) 1365 ((b!"invalid.go", 22, b!"ReturnStmt")) (.node (.node Tree.nil 1369 ((b!"invalid.go", 25, b!"ReturnStmt")) Tree.nil) 1385 ((b!"invalid.go", 35, b!"ReturnStmt")) (.node Tree.nil 1389 ((b!"invalid.go", 38, b!"ReturnStmt")) Tree.nil))) 1393 ((b!"invalid.go", 41, b!"ReturnStmt")) (.node (.node (.node Tree.nil 1409 ((b!"invalid.go", 51, b!"ReturnStmt")) Tree.nil) 1413 ((b!"invalid.go", 54, b!"ReturnStmt")) (.node Tree.nil 1417 ((b!"invalid.go", 57, b!"ReturnStmt")) Tree.nil)) 1433 ((b!"invalid.go", 67, b!"ReturnStmt")) (.node (.node Tree.nil 1437 ((b!"invalid.go", 70, b!"ReturnStmt")) Tree.nil) 1441 ((b!"invalid.go", 73, b!"ReturnStmt")) Tree.nil)))

/-- The names of the objects named in diagnostics other than by identifiers. -/
def objectNames : Tree GoString :=
  Tree.nil

def names : Names where
  object := fun o => (objectNames.find o).getD []
  kind := fun n => ((nodes.find n).map fun p => p.2.2).getD []

def place (n : NodeId) : GoString × Nat := ((nodes.find n).map fun p => (p.1, p.2.1)).getD ([], 0)

/-- What is printed: file, line and text. -/
def lines : List Check.Line := [(b!"invalid.go", 8, b!"error in annotation: expected '=', '+=', '-=', '+code', or '-code' after 'Error Codes' indicator"),
    (b!"invalid.go", 16, b!"invalid error code in annotation: should match [a-zA-Z][a-zA-Z0-9\\-]*[a-zA-Z0-9]"),
    (b!"invalid.go", 19, b!"error in annotation: expected '=', '+=', '-=', '+code', or '-code' after 'Error Codes' indicator"),
    (b!"invalid.go", 22, b!"invalid error code in annotation: should match [a-zA-Z][a-zA-Z0-9\\-]*[a-zA-Z0-9]"),
    (b!"invalid.go", 25, b!"invalid error code in annotation: should match [a-zA-Z][a-zA-Z0-9\\-]*[a-zA-Z0-9]"),
    (b!"invalid.go", 35, b!"invalid error code in annotation: should match [a-zA-Z][a-zA-Z0-9\\-]*[a-zA-Z0-9]"),
    (b!"invalid.go", 38, b!"invalid error code in annotation: should match [a-zA-Z][a-zA-Z0-9\\-]*[a-zA-Z0-9]"),
    (b!"invalid.go", 41, b!"invalid error code in annotation: should match [a-zA-Z][a-zA-Z0-9\\-]*[a-zA-Z0-9]"),
    (b!"invalid.go", 51, b!"invalid error code in annotation: should match [a-zA-Z][a-zA-Z0-9\\-]*[a-zA-Z0-9]"),
    (b!"invalid.go", 54, b!"invalid error code in annotation: should match [a-zA-Z][a-zA-Z0-9\\-]*[a-zA-Z0-9]"),
    (b!"invalid.go", 57, b!"invalid error code in annotation: should match [a-zA-Z][a-zA-Z0-9\\-]*[a-zA-Z0-9]"),
    (b!"invalid.go", 67, b!"invalid error code in annotation: should match [a-zA-Z][a-zA-Z0-9\\-]*[a-zA-Z0-9]"),
    (b!"invalid.go", 70, b!"invalid error code in annotation: should match [a-zA-Z][a-zA-Z0-9\\-]*[a-zA-Z0-9]"),
    (b!"invalid.go", 73, b!"invalid error code in annotation: code has to start with '+' or '-'")]

/-- **C54**: for every run over the package, these lines are printed. -/
theorem prints : Check.Prints package Imported true names place lines :=
  Check.prints always (by decide +kernel)

end Serum.Testdata.annotation
