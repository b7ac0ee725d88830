import Verif.Testdata.Support

/-!
# C54: the package analysis/testdata/src/docformat

Generated by `scripts/conformance/testdata.py` from docformat.go.  Numbers of syntax nodes, objects and types are arbitrary.  The tables hold
what `go/parser` and `go/types` say about the package.
-/

set_option maxRecDepth 100000
set_option linter.all false

namespace Serum.Testdata.docformat
open Serum Serum.Testdata

def s0 : GoString := b!"Correct"
def s1 : GoString := b!"false"
def s2 : GoString := b!"NewError"
def s3 : GoString := b!"flag"
def s4 : GoString := b!"code"
def s5 : GoString := b!"NoError"
def s6 : GoString := b!"InvalidNoErrors"
def s7 : GoString := b!"correctNoErrors"
def s8 : GoString := b!"InvalidNoErrorsWithComment"
def s9 : GoString := b!"nil"
def s10 : GoString := b!"CorrectNoErrors1"
def s11 : GoString := b!"CorrectNoErrors2"
def s12 : GoString := b!"Two"
def s13 : GoString := b!"InvalidRepeatedErrorsDeclaration1"
def s14 : GoString := b!"InvalidRepeatedErrorsDeclaration2"
def s15 : GoString := b!"InvalidRepeatedErrorsDeclaration3"
def s16 : GoString := b!"InvalidRepeatedErrorsDeclaration4"
def s17 : GoString := b!"Five"
def s18 : GoString := b!"Six"
def s19 : GoString := b!"Seven"
def s20 : GoString := b!"InvalidCodeFormat1"
def s21 : GoString := b!"InvalidCodeFormat2"
def s22 : GoString := b!"InvalidCodeFormat3"
def s23 : GoString := b!"InvalidCodeFormat4"
def s24 : GoString := b!"InvalidCodeFormat5"
def s25 : GoString := b!"InvalidConstructor1"
def s26 : GoString := b!"code1"
def s27 : GoString := b!"code2"
def s28 : GoString := b!"InvalidConstructor2"
def s29 : GoString := b!"InvalidConstructor3"
def s30 : GoString := b!"_"
def s31 : GoString := b!"InvalidErrorCodeParamType"
def s32 : GoString := b!"Code"
def s33 : GoString := b!"e"
def s34 : GoString := b!"TheCode"
def s35 : GoString := b!"Message"
def s36 : GoString := b!"Details"
def s37 : GoString := b!"Cause"
def s38 : GoString := b!"Error"
def s39 : GoString := b!"hello-unreachable"
def s40 : GoString := b!"hello-error"
def s41 : GoString := b!"unknown-error"
def s42 : GoString := b!"Four"
def s43 : GoString := b!"Three"
def s44 : GoString := b!"One"
def s45 : GoString := b!"OneWithComment"
def s46 : GoString := b!"one"
def s47 : GoString := b!"// want `function \"InvalidNoErrors\" is exported, but does not declare any error codes`"
def s48 : GoString := b!"// want `function \"InvalidNoErrorsWithComment\" is exported, but does not declare any error codes`"
def s49 : GoString := b!"// no problem if the function is not exported"
def s50 : GoString := b!"// want CorrectNoErrors1:\"ErrorCodes:\""
def s51 : GoString := b!"// want CorrectNoErrors2:\"ErrorCodes:\""
def s52 : GoString := b!"// want `function \"Two\" has odd docstring: need a blank line after the 'Errors:' block indicator`"
def s53 : GoString := b!"// want `function \"InvalidRepeatedErrorsDeclaration1\" has odd docstring: repeated 'Errors:' block indicator`"
def s54 : GoString := b!"// want `function \"InvalidRepeatedErrorsDeclaration2\" has odd docstring: repeated 'Errors:' block indicator`"
def s55 : GoString := b!"// want `function \"InvalidRepeatedErrorsDeclaration3\" has odd docstring: repeated 'Errors:' block indicator`"
def s56 : GoString := b!"// want `function \"InvalidRepeatedErrorsDeclaration4\" has odd docstring: repeated 'Errors:' block indicator`"
def s57 : GoString := b!"// want `function \"Five\" has odd docstring: mid block, a line leading with '- ' didnt contain a '--' to mark the end of the code name`"
def s58 : GoString := b!"// want `function \"Six\" has odd docstring: an error code can't be purely whitespace`"
def s59 : GoString := b!"// want `function \"Seven\" has odd docstring: an error code can't be purely whitespace`"
def s60 : GoString := b!"// want `function \"InvalidCodeFormat1\" has odd docstring: declared error code has invalid format: should match .*`"
def s61 : GoString := b!"// want `function \"InvalidCodeFormat2\" has odd docstring: declared error code has invalid format: should match .*`"
def s62 : GoString := b!"// want `function \"InvalidCodeFormat3\" has odd docstring: declared error code has invalid format: should match .*`"
def s63 : GoString := b!"// want `function \"InvalidCodeFormat4\" has odd docstring: declared error code has invalid format: should match .*`"
def s64 : GoString := b!"// want `function \"InvalidCodeFormat5\" has odd docstring: declared error code has invalid format: should match .*`"
def s65 : GoString := b!"// want `function \"InvalidConstructor1\" has odd docstring: cannot define more than one error code parameter \\(found multiple 'param:' inidicators\\)`"
def s66 : GoString := b!"// want `function \"InvalidConstructor2\" has odd docstring: an error code parameter can't be purely whitespace`"
def s67 : GoString := b!"// want `declared error code parameter \"code\" could not be found in parameter list`"
def s68 : GoString := b!"// want `error code parameter \"code\" has to be of type string`"
def s69 : GoString := b!"// Correct is a demo function."
def s70 : GoString := b!"// The following is a valid example of an errors docstring."
def s71 : GoString := b!"//"
def s72 : GoString := b!"// Errors:"
def s73 : GoString := b!"//    - hello-error       -- is always returned"
def s74 : GoString := b!"// The following error codes should not occur:"
def s75 : GoString := b!"//    - hello-unreachable -- should never be returned"
def s76 : GoString := b!"//    - hello-unreachable --"
def s77 : GoString := b!"// After a blank line comments in any format may follow."
def s78 : GoString := b!"// Additional blocks starting with 'Errors:' are disallowed."
def s79 : GoString := b!"// NewError is a constructor for Error using the code parameter."
def s80 : GoString := b!"//    - param: code   -- is used if the provided flag is true"
def s81 : GoString := b!"//    - unknown-error -- is used otherwise"
def s82 : GoString := b!"// NoError is a demo function."
def s83 : GoString := b!"// Functions that don't return an error, don't have to declare them in an errors docstring."
def s84 : GoString := b!"// InvalidNoErrorsWithComment is demo function."
def s85 : GoString := b!"// Erros are not documented in this function which should be detected by our analyzer."
def s86 : GoString := b!"// CorrectNoErrors1 returns no errors and correctly declares that."
def s87 : GoString := b!"// Errors: none"
def s88 : GoString := b!"// CorrectNoErrors2 returns no errors and correctly declares that."
def s89 : GoString := b!"// Errors: none -- some optional docu here why no errors are returned"
def s90 : GoString := b!"// Two is a test function."
def s91 : GoString := b!"// It returns an error value it creates itself."
def s92 : GoString := b!"// The following errors docstring is missing a blank line after 'Errors:'."
def s93 : GoString := b!"//    - hello-error -- is always returned."
def s94 : GoString := b!"// InvalidRepeatedErrorsDeclaration1 is a demo function."
def s95 : GoString := b!"// The following errors docstring has multiple 'Errors:' block indicators which is invalid."
def s96 : GoString := b!"// InvalidRepeatedErrorsDeclaration2 is a demo function."
def s97 : GoString := b!"// InvalidRepeatedErrorsDeclaration3 is a demo function."
def s98 : GoString := b!"// InvalidRepeatedErrorsDeclaration4 is a demo function."
def s99 : GoString := b!"// Five is a demo function."
def s100 : GoString := b!"// The following errors docstring has an error code line with an invalid format."
def s101 : GoString := b!"//    - hello-error - is always returned."
def s102 : GoString := b!"// Six is a demo function."
def s103 : GoString := b!"// The following errors docstring has an invalid whitespace error code."
def s104 : GoString := b!"//    - -- is invalid."
def s105 : GoString := b!"// Seven is a demo function."
def s106 : GoString := b!"//    -             -- is invalid."
def s107 : GoString := b!"// InvalidCodeFormat1 declares an error with invalid format."
def s108 : GoString := b!"// - invalid- -- ending with a dash"
def s109 : GoString := b!"// InvalidCodeFormat2 declares an error with invalid format."
def s110 : GoString := b!"// - -invalid -- starting with a dash"
def s111 : GoString := b!"// InvalidCodeFormat3 declares an error with invalid format."
def s112 : GoString := b!"// - 0invalid-error -- starting with a number"
def s113 : GoString := b!"// InvalidCodeFormat4 declares an error with invalid format."
def s114 : GoString := b!"// - invalid(error)-code -- containing invalid chars (braces)"
def s115 : GoString := b!"// InvalidCodeFormat5 declares an error with invalid format."
def s116 : GoString := b!"// - invalid error -- containing invalid char (space)"
def s117 : GoString := b!"//    - param: code1 --"
def s118 : GoString := b!"//    - param: code2 --"
def s119 : GoString := b!"//    - param:    --"
def s120 : GoString := b!"//    - param: code -- does not actually exist"
def s121 : GoString := b!"//    - param: code -- code with invalid type"
def s122 : GoString := b!"// OneWithComment is demo function."
def s123 : GoString := b!"InterfaceOne"
def s124 : GoString := b!"// Three is a demo function."
def s125 : GoString := b!"// Four is a demo function."
def s126 : GoString := b!"OddDocstringInterface"
def s127 : GoString := b!"error"
def s128 : GoString := b!"string"
/-- docformat.go:15: `func Correct` -/
def f0 : FuncDef := ⟨1540, some ⟨1519, s0, (some 0)⟩, ⟨[], (some [⟨[], 1521⟩]), 441⟩, some [.other 1533 [.ident ⟨1525, s1, none⟩, .other 1532 [.ret
  1531 [.unary 1530 true (.compositeLit 1529 [.basicLit 1528])]]], .ret 1538 [.unary 1537 true (.compositeLit 1536 [.basicLit 1535])]], 447, 592⟩
/-- docformat.go:28: `func NewError` -/
def f1 : FuncDef := ⟨1568, some ⟨1541, s2, (some 2)⟩, ⟨[⟨[⟨1542, s4, (some 3)⟩], 1543⟩, ⟨[⟨1544, s3, (some 4)⟩], 1545⟩], (some [⟨[], 1549⟩]), 819⟩,
  some [.other 1561 [.ident ⟨1553, s3, (some 4)⟩, .other 1560 [.ret 1559 [.unary 1558 true (.compositeLit 1557 [.ident ⟨1556, s4, (some 3)⟩])]]],
  .ret 1566 [.unary 1565 true (.compositeLit 1564 [.basicLit 1563])]], 825, 992⟩
/-- docformat.go:37: `func NoError` -/
def f2 : FuncDef := ⟨1573, some ⟨1569, s5, (some 5)⟩, ⟨[], none, 0⟩, some [], 1132, 1134⟩
/-- docformat.go:39: `func InvalidNoErrors` -/
def f3 : FuncDef := ⟨1584, some ⟨1574, s6, (some 6)⟩, ⟨[], (some [⟨[], 1576⟩]), 1159⟩, some [.ret 1582 [.call 1581 (.ident ⟨1580, s7, (some 7)⟩)
  []]], 1165, 1281⟩
/-- docformat.go:45: `func InvalidNoErrorsWithComment` -/
def f4 : FuncDef := ⟨1595, some ⟨1585, s8, (some 8)⟩, ⟨[], (some [⟨[], 1587⟩]), 1452⟩, some [.ret 1593 [.call 1592 (.ident ⟨1591, s7, (some 7)⟩)
  []]], 1458, 1585⟩
/-- docformat.go:49: `func correctNoErrors` -/
def f5 : FuncDef := ⟨1605, some ⟨1596, s7, (some 7)⟩, ⟨[], (some [⟨[], 1598⟩]), 1610⟩, some [.ret 1603 [.ident ⟨1602, s9, none⟩]], 1616, 1677⟩
/-- docformat.go:56: `func CorrectNoErrors1` -/
def f6 : FuncDef := ⟨1615, some ⟨1606, s10, (some 9)⟩, ⟨[], (some [⟨[], 1608⟩]), 1789⟩, some [.ret 1613 [.ident ⟨1612, s9, none⟩]], 1795, 1849⟩
/-- docformat.go:63: `func CorrectNoErrors2` -/
def f7 : FuncDef := ⟨1625, some ⟨1616, s11, (some 10)⟩, ⟨[], (some [⟨[], 1618⟩]), 2015⟩, some [.ret 1623 [.ident ⟨1622, s9, none⟩]], 2021, 2075⟩
/-- docformat.go:73: `func Two` -/
def f8 : FuncDef := ⟨1638, some ⟨1626, s12, (some 11)⟩, ⟨[], (some [⟨[], 1628⟩]), 2295⟩, some [.ret 1636 [.unary 1635 true (.compositeLit 1634
  [.basicLit 1633])]], 2301, 2432⟩
/-- docformat.go:85: `func InvalidRepeatedErrorsDeclaration1` -/
def f9 : FuncDef := ⟨1651, some ⟨1639, s13, (some 12)⟩, ⟨[], (some [⟨[], 1641⟩]), 2698⟩, some [.ret 1649 [.unary 1648 true (.compositeLit 1647
  [.basicLit 1646])]], 2704, 2846⟩
/-- docformat.go:99: `func InvalidRepeatedErrorsDeclaration2` -/
def f10 : FuncDef := ⟨1664, some ⟨1652, s14, (some 13)⟩, ⟨[], (some [⟨[], 1654⟩]), 3158⟩, some [.ret 1662 [.unary 1661 true (.compositeLit 1660
  [.basicLit 1659])]], 3164, 3306⟩
/-- docformat.go:111: `func InvalidRepeatedErrorsDeclaration3` -/
def f11 : FuncDef := ⟨1677, some ⟨1665, s15, (some 14)⟩, ⟨[], (some [⟨[], 1667⟩]), 3577⟩, some [.ret 1675 [.unary 1674 true (.compositeLit 1673
  [.basicLit 1672])]], 3583, 3725⟩
/-- docformat.go:123: `func InvalidRepeatedErrorsDeclaration4` -/
def f12 : FuncDef := ⟨1687, some ⟨1678, s16, (some 15)⟩, ⟨[], (some [⟨[], 1680⟩]), 3996⟩, some [.ret 1685 [.ident ⟨1684, s9, none⟩]], 4002, 4126⟩
/-- docformat.go:133: `func Five` -/
def f13 : FuncDef := ⟨1700, some ⟨1688, s17, (some 16)⟩, ⟨[], (some [⟨[], 1690⟩]), 4308⟩, some [.ret 1698 [.unary 1697 true (.compositeLit 1696
  [.basicLit 1695])]], 4314, 4482⟩
/-- docformat.go:144: `func Six` -/
def f14 : FuncDef := ⟨1713, some ⟨1701, s18, (some 17)⟩, ⟨[], (some [⟨[], 1703⟩]), 4677⟩, some [.ret 1711 [.unary 1710 true (.compositeLit 1709
  [.basicLit 1708])]], 4683, 4801⟩
/-- docformat.go:155: `func Seven` -/
def f15 : FuncDef := ⟨1726, some ⟨1714, s19, (some 18)⟩, ⟨[], (some [⟨[], 1716⟩]), 5012⟩, some [.ret 1724 [.unary 1723 true (.compositeLit 1722
  [.basicLit 1721])]], 5018, 5138⟩
/-- docformat.go:164: `func InvalidCodeFormat1` -/
def f16 : FuncDef := ⟨1736, some ⟨1727, s20, (some 19)⟩, ⟨[], (some [⟨[], 1729⟩]), 5280⟩, some [.ret 1734 [.ident ⟨1733, s9, none⟩]], 5286, 5416⟩
/-- docformat.go:173: `func InvalidCodeFormat2` -/
def f17 : FuncDef := ⟨1746, some ⟨1737, s21, (some 20)⟩, ⟨[], (some [⟨[], 1739⟩]), 5560⟩, some [.ret 1744 [.ident ⟨1743, s9, none⟩]], 5566, 5696⟩
/-- docformat.go:182: `func InvalidCodeFormat3` -/
def f18 : FuncDef := ⟨1756, some ⟨1747, s22, (some 21)⟩, ⟨[], (some [⟨[], 1749⟩]), 5848⟩, some [.ret 1754 [.ident ⟨1753, s9, none⟩]], 5854, 5984⟩
/-- docformat.go:191: `func InvalidCodeFormat4` -/
def f19 : FuncDef := ⟨1766, some ⟨1757, s23, (some 22)⟩, ⟨[], (some [⟨[], 1759⟩]), 6152⟩, some [.ret 1764 [.ident ⟨1763, s9, none⟩]], 6158, 6288⟩
/-- docformat.go:200: `func InvalidCodeFormat5` -/
def f20 : FuncDef := ⟨1776, some ⟨1767, s24, (some 23)⟩, ⟨[], (some [⟨[], 1769⟩]), 6448⟩, some [.ret 1774 [.ident ⟨1773, s9, none⟩]], 6454, 6584⟩
/-- docformat.go:208: `func InvalidConstructor1` -/
def f21 : FuncDef := ⟨1790, some ⟨1777, s25, (some 24)⟩, ⟨[⟨[⟨1778, s26, (some 25)⟩, ⟨1779, s27, (some 26)⟩], 1780⟩], (some [⟨[], 1783⟩]), 6694⟩,
  some [.ret 1788 [.ident ⟨1787, s9, none⟩]], 6700, 6864⟩
/-- docformat.go:215: `func InvalidConstructor2` -/
def f22 : FuncDef := ⟨1804, some ⟨1791, s28, (some 27)⟩, ⟨[⟨[⟨1792, s26, (some 28)⟩, ⟨1793, s27, (some 29)⟩], 1794⟩], (some [⟨[], 1797⟩]), 6947⟩,
  some [.ret 1802 [.ident ⟨1801, s9, none⟩]], 6953, 7079⟩
/-- docformat.go:222: `func InvalidConstructor3` -/
def f23 : FuncDef := ⟨1817, some ⟨1805, s29, (some 30)⟩, ⟨[⟨[⟨1806, s30, (some 31)⟩], 1807⟩], (some [⟨[], 1810⟩]), 7177⟩, some [.ret 1815 [.ident
  ⟨1814, s9, none⟩]], 7183, 7282⟩
/-- docformat.go:229: `func InvalidErrorCodeParamType` -/
def f24 : FuncDef := ⟨1830, some ⟨1818, s31, (some 32)⟩, ⟨[⟨[⟨1819, s4, (some 33)⟩], 1820⟩], (some [⟨[], 1823⟩]), 7385⟩, some [.ret 1828 [.ident
  ⟨1827, s9, none⟩]], 7391, 7469⟩
/-- docformat.go:317: `func Code` -/
def f25 : FuncDef := ⟨1942, some ⟨1931, s32, none⟩, ⟨[], (some [⟨[], 1933⟩]), 10418⟩, some [.ret 1940 [.selector 1939 (.ident ⟨1937, s33, (some
  48)⟩) ⟨1938, s34, none⟩]], 10439, 10459⟩
/-- docformat.go:318: `func Message` -/
def f26 : FuncDef := ⟨1959, some ⟨1948, s35, none⟩, ⟨[], (some [⟨[], 1950⟩]), 10486⟩, some [.ret 1957 [.selector 1956 (.ident ⟨1954, s33, (some
  49)⟩) ⟨1955, s34, none⟩]], 10504, 10524⟩
/-- docformat.go:319: `func Details` -/
def f27 : FuncDef := ⟨1976, some ⟨1965, s36, none⟩, ⟨[], (some [⟨[], 1969⟩]), 10551⟩, some [.ret 1974 [.ident ⟨1973, s9, none⟩]], 10569, 10583⟩
/-- docformat.go:320: `func Cause` -/
def f28 : FuncDef := ⟨1991, some ⟨1982, s37, none⟩, ⟨[], (some [⟨[], 1984⟩]), 10608⟩, some [.ret 1989 [.ident ⟨1988, s9, none⟩]], 10628, 10642⟩
/-- docformat.go:321: `func Error` -/
def f29 : FuncDef := ⟨2009, some ⟨1997, s38, none⟩, ⟨[], (some [⟨[], 1999⟩]), 10667⟩, some [.ret 2007 [.call 2006 (.selector 2005 (.ident ⟨2003,
  s33, (some 52)⟩) ⟨2004, s35, none⟩) []]], 10687, 10709⟩
/-- The objects of go/ast, in the order of their numbers. -/
def objects : List ObjInfo := [
  ⟨.fun_, 431, (.funcDecl 0)⟩,
  ⟨.typ, 10291, .typeSpec⟩,
  ⟨.fun_, 786, (.funcDecl 1)⟩,
  ⟨.var, 795, .other⟩,
  ⟨.var, 808, .other⟩,
  ⟨.fun_, 1122, (.funcDecl 2)⟩,
  ⟨.fun_, 1141, (.funcDecl 3)⟩,
  ⟨.fun_, 1592, (.funcDecl 5)⟩,
  ⟨.fun_, 1423, (.funcDecl 4)⟩,
  ⟨.fun_, 1770, (.funcDecl 6)⟩,
  ⟨.fun_, 1996, (.funcDecl 7)⟩,
  ⟨.fun_, 2289, (.funcDecl 8)⟩,
  ⟨.fun_, 2662, (.funcDecl 9)⟩,
  ⟨.fun_, 3122, (.funcDecl 10)⟩,
  ⟨.fun_, 3541, (.funcDecl 11)⟩,
  ⟨.fun_, 3960, (.funcDecl 12)⟩,
  ⟨.fun_, 4301, (.funcDecl 13)⟩,
  ⟨.fun_, 4671, (.funcDecl 14)⟩,
  ⟨.fun_, 5004, (.funcDecl 15)⟩,
  ⟨.fun_, 5259, (.funcDecl 16)⟩,
  ⟨.fun_, 5539, (.funcDecl 17)⟩,
  ⟨.fun_, 5827, (.funcDecl 18)⟩,
  ⟨.fun_, 6131, (.funcDecl 19)⟩,
  ⟨.fun_, 6427, (.funcDecl 20)⟩,
  ⟨.fun_, 6653, (.funcDecl 21)⟩,
  ⟨.var, 6673, .other⟩,
  ⟨.var, 6680, .other⟩,
  ⟨.fun_, 6906, (.funcDecl 22)⟩,
  ⟨.var, 6926, .other⟩,
  ⟨.var, 6933, .other⟩,
  ⟨.fun_, 7147, (.funcDecl 23)⟩,
  ⟨.var, 7167, .other⟩,
  ⟨.fun_, 7349, (.funcDecl 24)⟩,
  ⟨.var, 7375, .other⟩,
  ⟨.typ, 7476, .typeSpec⟩,
  ⟨.fun_, 7502, .other⟩,
  ⟨.fun_, 7707, .other⟩,
  ⟨.fun_, 7809, .other⟩,
  ⟨.typ, 7895, .typeSpec⟩,
  ⟨.fun_, 8018, .other⟩,
  ⟨.fun_, 8341, .other⟩,
  ⟨.fun_, 8696, .other⟩,
  ⟨.fun_, 8973, .other⟩,
  ⟨.fun_, 9320, .other⟩,
  ⟨.fun_, 9630, .other⟩,
  ⟨.fun_, 9860, .other⟩,
  ⟨.fun_, 10133, .other⟩,
  ⟨.var, 10377, .other⟩,
  ⟨.var, 10401, .other⟩,
  ⟨.var, 10466, .other⟩,
  ⟨.var, 10531, .other⟩,
  ⟨.var, 10590, .other⟩,
  ⟨.var, 10649, .other⟩]
/-- Types of expressions (`Info.Types`, `Info.Defs`, `Info.Uses`). -/
def typeTable : Tree GoType := (.node (.node (.node (.node (.node (.node (.node (.node Tree.nil 1519 (.signature 6) Tree.nil) 1521 (.named 19)
  (.node Tree.nil 1524 (.signature 6) Tree.nil)) 1525 (.other 10) (.node (.node Tree.nil 1527 (.named 185) Tree.nil) 1528 (.string) (.node Tree.nil
  1529 (.named 185) Tree.nil))) 1530 (.pointer (.named 185)) (.node (.node (.node Tree.nil 1534 (.named 185) Tree.nil) 1535 (.string) (.node
  Tree.nil 1536 (.named 185) Tree.nil)) 1537 (.pointer (.named 185)) (.node (.node Tree.nil 1541 (.signature 26) Tree.nil) 1542 (.string)
  Tree.nil))) 1543 (.string) (.node (.node (.node (.node Tree.nil 1544 (.other 10) Tree.nil) 1545 (.other 10) (.node Tree.nil 1549 (.named 19)
  Tree.nil)) 1552 (.signature 26) (.node (.node Tree.nil 1553 (.other 10) Tree.nil) 1555 (.named 185) (.node Tree.nil 1556 (.string) Tree.nil)))
  1557 (.named 185) (.node (.node (.node Tree.nil 1558 (.pointer (.named 185)) Tree.nil) 1562 (.named 185) (.node Tree.nil 1563 (.string) Tree.nil))
  1564 (.named 185) (.node (.node Tree.nil 1565 (.pointer (.named 185)) Tree.nil) 1569 (.signature 15) Tree.nil)))) 1571 (.signature 15) (.node
  (.node (.node (.node (.node Tree.nil 1574 (.signature 6) Tree.nil) 1576 (.named 19) (.node Tree.nil 1579 (.signature 6) Tree.nil)) 1580
  (.signature 6) (.node (.node Tree.nil 1581 (.named 19) Tree.nil) 1585 (.signature 6) (.node Tree.nil 1587 (.named 19) Tree.nil))) 1590 (.signature
  6) (.node (.node (.node Tree.nil 1591 (.signature 6) Tree.nil) 1592 (.named 19) (.node Tree.nil 1596 (.signature 6) Tree.nil)) 1598 (.named 19)
  (.node (.node Tree.nil 1601 (.signature 6) Tree.nil) 1602 (.untypedNil) Tree.nil))) 1606 (.signature 6) (.node (.node (.node (.node Tree.nil 1608
  (.named 19) Tree.nil) 1611 (.signature 6) (.node Tree.nil 1612 (.untypedNil) Tree.nil)) 1616 (.signature 6) (.node (.node Tree.nil 1618 (.named
  19) Tree.nil) 1621 (.signature 6) (.node Tree.nil 1622 (.untypedNil) Tree.nil))) 1626 (.signature 6) (.node (.node (.node Tree.nil 1628 (.named
  19) Tree.nil) 1631 (.signature 6) (.node Tree.nil 1632 (.named 185) Tree.nil)) 1633 (.string) (.node (.node Tree.nil 1634 (.named 185) Tree.nil)
  1635 (.pointer (.named 185)) Tree.nil))))) 1639 (.signature 6) (.node (.node (.node (.node (.node (.node Tree.nil 1641 (.named 19) Tree.nil) 1644
  (.signature 6) (.node Tree.nil 1645 (.named 185) Tree.nil)) 1646 (.string) (.node (.node Tree.nil 1647 (.named 185) Tree.nil) 1648 (.pointer
  (.named 185)) (.node Tree.nil 1652 (.signature 6) Tree.nil))) 1654 (.named 19) (.node (.node (.node Tree.nil 1657 (.signature 6) Tree.nil) 1658
  (.named 185) (.node Tree.nil 1659 (.string) Tree.nil)) 1660 (.named 185) (.node (.node Tree.nil 1661 (.pointer (.named 185)) Tree.nil) 1665
  (.signature 6) Tree.nil))) 1667 (.named 19) (.node (.node (.node (.node Tree.nil 1670 (.signature 6) Tree.nil) 1671 (.named 185) (.node Tree.nil
  1672 (.string) Tree.nil)) 1673 (.named 185) (.node (.node Tree.nil 1674 (.pointer (.named 185)) Tree.nil) 1678 (.signature 6) (.node Tree.nil 1680
  (.named 19) Tree.nil))) 1683 (.signature 6) (.node (.node (.node Tree.nil 1684 (.untypedNil) Tree.nil) 1688 (.signature 6) (.node Tree.nil 1690
  (.named 19) Tree.nil)) 1693 (.signature 6) (.node (.node Tree.nil 1694 (.named 185) Tree.nil) 1695 (.string) Tree.nil)))) 1696 (.named 185) (.node
  (.node (.node (.node (.node Tree.nil 1697 (.pointer (.named 185)) Tree.nil) 1701 (.signature 6) (.node Tree.nil 1703 (.named 19) Tree.nil)) 1706
  (.signature 6) (.node (.node Tree.nil 1707 (.named 185) Tree.nil) 1708 (.string) (.node Tree.nil 1709 (.named 185) Tree.nil))) 1710 (.pointer
  (.named 185)) (.node (.node (.node Tree.nil 1714 (.signature 6) Tree.nil) 1716 (.named 19) (.node Tree.nil 1719 (.signature 6) Tree.nil)) 1720
  (.named 185) (.node (.node Tree.nil 1721 (.string) Tree.nil) 1722 (.named 185) Tree.nil))) 1723 (.pointer (.named 185)) (.node (.node (.node
  (.node Tree.nil 1727 (.signature 6) Tree.nil) 1729 (.named 19) (.node Tree.nil 1732 (.signature 6) Tree.nil)) 1733 (.untypedNil) (.node (.node
  Tree.nil 1737 (.signature 6) Tree.nil) 1739 (.named 19) Tree.nil)) 1742 (.signature 6) (.node (.node (.node Tree.nil 1743 (.untypedNil) Tree.nil)
  1747 (.signature 6) (.node Tree.nil 1749 (.named 19) Tree.nil)) 1752 (.signature 6) (.node (.node Tree.nil 1753 (.untypedNil) Tree.nil) 1757
  (.signature 6) Tree.nil)))))) 1759 (.named 19) (.node (.node (.node (.node (.node (.node (.node Tree.nil 1762 (.signature 6) Tree.nil) 1763
  (.untypedNil) (.node Tree.nil 1767 (.signature 6) Tree.nil)) 1769 (.named 19) (.node (.node Tree.nil 1772 (.signature 6) Tree.nil) 1773
  (.untypedNil) (.node Tree.nil 1777 (.signature 27) Tree.nil))) 1778 (.string) (.node (.node (.node Tree.nil 1779 (.string) Tree.nil) 1780
  (.string) (.node Tree.nil 1783 (.named 19) Tree.nil)) 1786 (.signature 27) (.node (.node Tree.nil 1787 (.untypedNil) Tree.nil) 1791 (.signature
  27) Tree.nil))) 1792 (.string) (.node (.node (.node (.node Tree.nil 1793 (.string) Tree.nil) 1794 (.string) (.node Tree.nil 1797 (.named 19)
  Tree.nil)) 1800 (.signature 27) (.node (.node Tree.nil 1801 (.untypedNil) Tree.nil) 1805 (.signature 22) (.node Tree.nil 1806 (.string)
  Tree.nil))) 1807 (.string) (.node (.node (.node Tree.nil 1810 (.named 19) Tree.nil) 1813 (.signature 22) (.node Tree.nil 1814 (.untypedNil)
  Tree.nil)) 1818 (.signature 28) (.node (.node Tree.nil 1819 (.other 8) Tree.nil) 1820 (.other 8) Tree.nil)))) 1823 (.named 19) (.node (.node
  (.node (.node (.node Tree.nil 1826 (.signature 28) Tree.nil) 1827 (.untypedNil) (.node Tree.nil 1831 (.named 183) Tree.nil)) 1832 (.signature 6)
  (.node (.node Tree.nil 1834 (.named 19) Tree.nil) 1837 (.signature 6) (.node Tree.nil 1839 (.signature 6) Tree.nil))) 1841 (.named 19) (.node
  (.node (.node Tree.nil 1844 (.signature 6) Tree.nil) 1846 (.signature 6) (.node Tree.nil 1848 (.named 19) Tree.nil)) 1851 (.signature 6) (.node
  (.node Tree.nil 1854 (.interface 25) Tree.nil) 1857 (.named 184) Tree.nil))) 1858 (.signature 6) (.node (.node (.node (.node Tree.nil 1860 (.named
  19) Tree.nil) 1863 (.signature 6) (.node Tree.nil 1865 (.signature 6) Tree.nil)) 1867 (.named 19) (.node (.node Tree.nil 1870 (.signature 6)
  Tree.nil) 1872 (.signature 6) Tree.nil)) 1874 (.named 19) (.node (.node (.node Tree.nil 1877 (.signature 6) Tree.nil) 1879 (.signature 6) (.node
  Tree.nil 1881 (.named 19) Tree.nil)) 1884 (.signature 6) (.node (.node Tree.nil 1886 (.signature 6) Tree.nil) 1888 (.named 19) Tree.nil))))) 1891
  (.signature 6) (.node (.node (.node (.node (.node (.node Tree.nil 1893 (.signature 6) Tree.nil) 1895 (.named 19) (.node Tree.nil 1898 (.signature
  6) Tree.nil)) 1900 (.signature 6) (.node (.node Tree.nil 1902 (.named 19) Tree.nil) 1905 (.signature 6) (.node Tree.nil 1907 (.signature 6)
  Tree.nil))) 1909 (.named 19) (.node (.node (.node Tree.nil 1912 (.signature 6) Tree.nil) 1915 (.interface 24) (.node Tree.nil 1918 (.named 185)
  Tree.nil)) 1919 (.string) (.node (.node Tree.nil 1920 (.string) Tree.nil) 1923 (.struct 1) Tree.nil))) 1926 (.pointer (.named 185)) (.node (.node
  (.node (.node Tree.nil 1927 (.named 185) Tree.nil) 1928 (.pointer (.named 185)) (.node Tree.nil 1931 (.signature 11) Tree.nil)) 1933 (.string)
  (.node (.node Tree.nil 1936 (.signature 11) Tree.nil) 1937 (.pointer (.named 185)) (.node Tree.nil 1938 (.string) Tree.nil))) 1939 (.string)
  (.node (.node (.node Tree.nil 1943 (.pointer (.named 185)) Tree.nil) 1944 (.named 185) (.node Tree.nil 1945 (.pointer (.named 185)) Tree.nil))
  1948 (.signature 11) (.node (.node Tree.nil 1950 (.string) Tree.nil) 1953 (.signature 11) Tree.nil)))) 1954 (.pointer (.named 185)) (.node (.node
  (.node (.node (.node Tree.nil 1955 (.string) Tree.nil) 1956 (.string) (.node Tree.nil 1960 (.pointer (.named 185)) Tree.nil)) 1961 (.named 185)
  (.node (.node Tree.nil 1962 (.pointer (.named 185)) Tree.nil) 1965 (.signature 23) (.node Tree.nil 1967 (.string) Tree.nil))) 1968 (.string)
  (.node (.node (.node Tree.nil 1969 (.map (.string) (.string)) Tree.nil) 1972 (.signature 23) (.node Tree.nil 1973 (.untypedNil) Tree.nil)) 1977
  (.pointer (.named 185)) (.node (.node Tree.nil 1978 (.named 185) Tree.nil) 1979 (.pointer (.named 185)) Tree.nil))) 1982 (.signature 6) (.node
  (.node (.node (.node Tree.nil 1984 (.named 19) Tree.nil) 1987 (.signature 6) (.node Tree.nil 1988 (.untypedNil) Tree.nil)) 1992 (.pointer (.named
  185)) (.node (.node Tree.nil 1993 (.named 185) Tree.nil) 1994 (.pointer (.named 185)) Tree.nil)) 1997 (.signature 11) (.node (.node (.node
  Tree.nil 1999 (.string) Tree.nil) 2002 (.signature 11) (.node Tree.nil 2003 (.pointer (.named 185)) Tree.nil)) 2004 (.signature 11) (.node (.node
  Tree.nil 2005 (.signature 11) Tree.nil) 2006 (.string) Tree.nil)))))))
/-- Constant values of expressions. -/
def valueTable : Tree Const := (.node (.node (.node (.node Tree.nil 1525 (.other) Tree.nil) 1528 (.str s39) Tree.nil) 1535 (.str s40) (.node (.node
  Tree.nil 1563 (.str s41) Tree.nil) 1633 (.str s40) Tree.nil)) 1646 (.str s40) (.node (.node (.node Tree.nil 1659 (.str s40) Tree.nil) 1672 (.str
  s40) Tree.nil) 1695 (.str s40) (.node (.node Tree.nil 1708 (.str s40) Tree.nil) 1721 (.str s40) Tree.nil)))
/-- `typeutil.Callee` of call expressions. -/
def calleeTable : Tree Nat := (.node (.node Tree.nil 1581 (163) Tree.nil) 1592 (163) (.node Tree.nil 2006 (187) Tree.nil))
/-- `Info.Uses`. -/
def usesTable : Tree Nat := (.node (.node (.node (.node (.node (.node (.node Tree.nil 1521 (19) Tree.nil) 1525 (22) Tree.nil) 1527 (185) (.node
  (.node Tree.nil 1534 (185) Tree.nil) 1543 (16) Tree.nil)) 1545 (0) (.node (.node (.node Tree.nil 1549 (19) Tree.nil) 1553 (204) Tree.nil) 1555
  (185) (.node (.node Tree.nil 1556 (203) Tree.nil) 1562 (185) Tree.nil))) 1576 (19) (.node (.node (.node (.node Tree.nil 1580 (163) Tree.nil) 1587
  (19) Tree.nil) 1591 (163) (.node (.node Tree.nil 1598 (19) Tree.nil) 1602 (23) Tree.nil)) 1608 (19) (.node (.node (.node Tree.nil 1612 (23)
  Tree.nil) 1618 (19) Tree.nil) 1622 (23) (.node Tree.nil 1628 (19) Tree.nil)))) 1632 (185) (.node (.node (.node (.node (.node Tree.nil 1641 (19)
  Tree.nil) 1645 (185) Tree.nil) 1654 (19) (.node (.node Tree.nil 1658 (185) Tree.nil) 1667 (19) Tree.nil)) 1671 (185) (.node (.node (.node Tree.nil
  1680 (19) Tree.nil) 1684 (23) Tree.nil) 1690 (19) (.node (.node Tree.nil 1694 (185) Tree.nil) 1703 (19) Tree.nil))) 1707 (185) (.node (.node
  (.node (.node Tree.nil 1716 (19) Tree.nil) 1720 (185) Tree.nil) 1729 (19) (.node (.node Tree.nil 1733 (23) Tree.nil) 1739 (19) Tree.nil)) 1743
  (23) (.node (.node (.node Tree.nil 1749 (19) Tree.nil) 1753 (23) Tree.nil) 1759 (19) (.node Tree.nil 1763 (23) Tree.nil))))) 1769 (19) (.node
  (.node (.node (.node (.node (.node Tree.nil 1773 (23) Tree.nil) 1780 (16) Tree.nil) 1783 (19) (.node (.node Tree.nil 1787 (23) Tree.nil) 1794 (16)
  Tree.nil)) 1797 (19) (.node (.node (.node Tree.nil 1801 (23) Tree.nil) 1807 (16) Tree.nil) 1810 (19) (.node (.node Tree.nil 1814 (23) Tree.nil)
  1820 (1) Tree.nil))) 1823 (19) (.node (.node (.node (.node Tree.nil 1827 (23) Tree.nil) 1834 (19) Tree.nil) 1841 (19) (.node (.node Tree.nil 1848
  (19) Tree.nil) 1860 (19) Tree.nil)) 1867 (19) (.node (.node (.node Tree.nil 1874 (19) Tree.nil) 1881 (19) Tree.nil) 1888 (19) (.node Tree.nil 1895
  (19) Tree.nil)))) 1902 (19) (.node (.node (.node (.node (.node Tree.nil 1909 (19) Tree.nil) 1920 (16) Tree.nil) 1927 (185) (.node (.node Tree.nil
  1933 (16) Tree.nil) 1937 (211) Tree.nil)) 1938 (105) (.node (.node (.node Tree.nil 1944 (185) Tree.nil) 1950 (16) Tree.nil) 1954 (212) (.node
  Tree.nil 1955 (105) Tree.nil))) 1961 (185) (.node (.node (.node (.node Tree.nil 1967 (16) Tree.nil) 1968 (16) Tree.nil) 1973 (23) (.node (.node
  Tree.nil 1978 (185) Tree.nil) 1984 (19) Tree.nil)) 1988 (23) (.node (.node (.node Tree.nil 1993 (185) Tree.nil) 1999 (16) Tree.nil) 2003 (215)
  (.node Tree.nil 2004 (187) Tree.nil))))))
/-- `Info.Selections`. -/
def selectionTable : Tree (GoType × Nat) := (.node (.node Tree.nil 1939 ((.pointer (.named 185), 105)) Tree.nil) 1956 ((.pointer (.named 185), 105))
  (.node Tree.nil 2005 ((.pointer (.named 185), 187)) Tree.nil))
/-- Identifiers that are names of imported packages. -/
def pkgNameTable : Tree GoString := Tree.nil
/-- Method sets. -/
def methodSetTable : Tree (List (GoString × Nat)) := (.node (.node (.node Tree.nil 27 ([(s38, 1386)]) Tree.nil) 95 ([(s38, 20)]) (.node Tree.nil 122
  ([(s17, 1387), (s42, 1390), (s20, 1393), (s21, 1394), (s19, 1392), (s18, 1389), (s43, 1388), (s12, 1391)]) Tree.nil)) 127 ([(s44, 1395), (s45,
  1397), (s46, 1396)]) (.node (.node Tree.nil 915 ([(s44, 191), (s45, 192), (s46, 193)]) Tree.nil) 920 ([(s17, 197), (s42, 196), (s20, 200), (s21,
  201), (s19, 199), (s18, 198), (s43, 195), (s12, 194)]) (.node Tree.nil 926 ([(s37, 189), (s32, 186), (s36, 188), (s38, 190), (s35, 187)])
  Tree.nil)))
/-- Types implementing `error`. -/
def implErrorTable : Tree Unit := (.node (.node Tree.nil 27 (()) Tree.nil) 95 (()) (.node Tree.nil 926 (()) Tree.nil))
/-- Types implementing `error` with a code. -/
def implCodeTable : Tree Unit := (.node Tree.nil 926 (()) Tree.nil)
/-- Types implementing `error` with a cause. -/
def implCauseTable : Tree Unit := (.node Tree.nil 926 (()) Tree.nil)
/-- Signatures: types of parameters, variadic, number of results. -/
def sigTable : Tree (List GoType × Bool × Nat) := (.node (.node (.node (.node Tree.nil 6 (([], false, 1)) Tree.nil) 11 (([], false, 1)) Tree.nil) 15
  (([], false, 0)) (.node Tree.nil 22 (([.string], false, 1)) Tree.nil)) 23 (([], false, 1)) (.node (.node Tree.nil 26 (([.string, .other 10],
  false, 1)) Tree.nil) 27 (([.string, .string], false, 1)) (.node Tree.nil 28 (([.other 8], false, 1)) Tree.nil)))
/-- Tuples of results. -/
def tupleTable : Tree (List GoType) := Tree.nil
/-- Fields of structs. -/
def structTable : Tree (List (GoString × GoType)) := (.node Tree.nil 1 ([(s34, .string)]) Tree.nil)
/-- Underlying types of named types. -/
def underlyingTable : Tree GoType := (.node (.node (.node Tree.nil 19 (.interface 5) Tree.nil) 183 (.interface 25) Tree.nil) 184 (.interface 24)
  (.node Tree.nil 185 (.struct 1) Tree.nil))
/-- Which types implement which interfaces. -/
def implTable : Tree (Tree Unit) := (.node (.node Tree.nil 5 ((.node (.node Tree.nil 27 (()) Tree.nil) 95 (()) (.node Tree.nil 926 (()) Tree.nil)))
  Tree.nil) 24 ((.node (.node Tree.nil 122 (()) Tree.nil) 920 (()) Tree.nil)) (.node Tree.nil 25 ((.node (.node Tree.nil 127 (()) Tree.nil) 915 (())
  Tree.nil)) Tree.nil))
/-- Comments at return statements (`ast.NewCommentMap`). -/
def commentTable : Tree (List (List GoString)) := (.node (.node (.node (.node (.node Tree.nil 1582 ([[s47]]) Tree.nil) 1593 ([[s48]]) Tree.nil) 1603
  ([[s49]]) (.node (.node Tree.nil 1613 ([[s50]]) Tree.nil) 1623 ([[s51]]) Tree.nil)) 1636 ([[s52]]) (.node (.node (.node Tree.nil 1649 ([[s53]])
  Tree.nil) 1662 ([[s54]]) Tree.nil) 1675 ([[s55]]) (.node (.node Tree.nil 1685 ([[s56]]) Tree.nil) 1698 ([[s57]]) Tree.nil))) 1711 ([[s58]]) (.node
  (.node (.node (.node Tree.nil 1724 ([[s59]]) Tree.nil) 1734 ([[s60]]) Tree.nil) 1744 ([[s61]]) (.node (.node Tree.nil 1754 ([[s62]]) Tree.nil)
  1764 ([[s63]]) Tree.nil)) 1774 ([[s64]]) (.node (.node (.node Tree.nil 1788 ([[s65]]) Tree.nil) 1802 ([[s66]]) Tree.nil) 1815 ([[s67]]) (.node
  Tree.nil 1828 ([[s68]]) Tree.nil))))
/-- Function declarations. -/
def declTable : Tree DeclInfo := (.node (.node (.node (.node (.node Tree.nil 0 (⟨s0, true, none, some (CommentText.text [s69, s70, s71, s72, s71,
  s73, s74, s75, s76, s71, s77, s78]), 1540, 158, []⟩) Tree.nil) 1 (⟨s2, true, none, some (CommentText.text [s79, s71, s72, s71, s80, s81]), 1568,
  159, []⟩) (.node Tree.nil 2 (⟨s5, true, none, some (CommentText.text [s82, s83]), 1573, 160, []⟩) Tree.nil)) 3 (⟨s6, true, none, none, 1584, 161,
  []⟩) (.node (.node Tree.nil 4 (⟨s8, true, none, some (CommentText.text [s84, s85]), 1595, 162, []⟩) Tree.nil) 5 (⟨s7, false, none, none, 1605,
  163, []⟩) (.node Tree.nil 6 (⟨s10, true, none, some (CommentText.text [s86, s71, s87]), 1615, 164, []⟩) Tree.nil))) 7 (⟨s11, true, none, some
  (CommentText.text [s88, s71, s89]), 1625, 165, []⟩) (.node (.node (.node Tree.nil 8 (⟨s12, true, none, some (CommentText.text [s90, s91, s92, s71,
  s72, s93]), 1638, 166, []⟩) Tree.nil) 9 (⟨s13, true, none, some (CommentText.text [s94, s95, s71, s72, s71, s72, s71, s93]), 1651, 167, []⟩)
  (.node Tree.nil 10 (⟨s14, true, none, some (CommentText.text [s96, s95, s71, s72, s71, s93, s71, s72, s71, s93]), 1664, 168, []⟩) Tree.nil)) 11
  (⟨s15, true, none, some (CommentText.text [s97, s95, s71, s87, s71, s72, s71, s93]), 1677, 169, []⟩) (.node (.node Tree.nil 12 (⟨s16, true, none,
  some (CommentText.text [s98, s95, s71, s72, s71, s93, s71, s87]), 1687, 170, []⟩) Tree.nil) 13 (⟨s17, true, none, some (CommentText.text [s99,
  s100, s71, s72, s71, s101]), 1700, 171, []⟩) (.node Tree.nil 14 (⟨s18, true, none, some (CommentText.text [s102, s103, s71, s72, s71, s93, s104]),
  1713, 172, []⟩) Tree.nil)))) 15 (⟨s19, true, none, some (CommentText.text [s105, s103, s71, s72, s71, s93, s106]), 1726, 173, []⟩) (.node (.node
  (.node (.node Tree.nil 16 (⟨s20, true, none, some (CommentText.text [s107, s71, s72, s71, s108]), 1736, 174, []⟩) Tree.nil) 17 (⟨s21, true, none,
  some (CommentText.text [s109, s71, s72, s71, s110]), 1746, 175, []⟩) (.node Tree.nil 18 (⟨s22, true, none, some (CommentText.text [s111, s71, s72,
  s71, s112]), 1756, 176, []⟩) Tree.nil)) 19 (⟨s23, true, none, some (CommentText.text [s113, s71, s72, s71, s114]), 1766, 177, []⟩) (.node (.node
  Tree.nil 20 (⟨s24, true, none, some (CommentText.text [s115, s71, s72, s71, s116]), 1776, 178, []⟩) Tree.nil) 21 (⟨s25, true, none, some
  (CommentText.text [s72, s71, s117, s118]), 1790, 179, []⟩) (.node Tree.nil 22 (⟨s28, true, none, some (CommentText.text [s72, s71, s119]), 1804,
  180, []⟩) Tree.nil))) 23 (⟨s29, true, none, some (CommentText.text [s72, s71, s120]), 1817, 181, []⟩) (.node (.node (.node Tree.nil 24 (⟨s31,
  true, none, some (CommentText.text [s72, s71, s121]), 1830, 182, []⟩) Tree.nil) 25 (⟨s32, true, some 1928, none, 1942, 186, [⟨1926, s33, (some
  48)⟩]⟩) (.node Tree.nil 26 (⟨s35, true, some 1945, none, 1959, 187, [⟨1943, s33, (some 49)⟩]⟩) Tree.nil)) 27 (⟨s36, true, some 1962, none, 1976,
  188, [⟨1960, s33, (some 50)⟩]⟩) (.node (.node Tree.nil 28 (⟨s37, true, some 1979, none, 1991, 189, [⟨1977, s33, (some 51)⟩]⟩) Tree.nil) 29 (⟨s38,
  true, some 1994, none, 2009, 190, [⟨1992, s33, (some 52)⟩]⟩) Tree.nil))))
/-- Named interfaces. -/
def interfaceTable : Tree Unit := (.node (.node Tree.nil 19 (()) Tree.nil) 183 (()) (.node Tree.nil 184 (()) Tree.nil))
/-- Methods of named types. -/
def methodNameTable : Tree (List GoString) := (.node Tree.nil 185 ([s32, s35, s36, s37, s38]) Tree.nil)
/-- Objects of interface methods. -/
def methodObjTable : Tree Nat := (.node (.node (.node (.node Tree.nil 1832 (191) Tree.nil) 1839 (192) Tree.nil) 1846 (193) (.node (.node Tree.nil
  1858 (194) Tree.nil) 1865 (195) Tree.nil)) 1872 (196) (.node (.node (.node Tree.nil 1879 (197) Tree.nil) 1886 (198) Tree.nil) 1893 (199) (.node
  (.node Tree.nil 1900 (200) Tree.nil) 1907 (201) Tree.nil)))
/-- Syntax and types of the package, and the facts exported by the packages it imports. -/
def env : Env where
  funcs := [f0, f1, f2, f3, f4, f5, f6, f7, f8, f9, f10, f11, f12, f13, f14, f15, f16, f17, f18, f19, f20, f21, f22, f23, f24, f25, f26, f27, f28,
  f29]
  objects := objects
  typeOf := fun n => (typeTable.find n).getD (.other 0)
  value := valueTable.find
  callee := calleeTable.find
  uses := usesTable.find
  selection := selectionTable.find
  pkgName := pkgNameTable.find
  funcObj := fun f => ((declTable.find f).map (·.obj)).getD 0
  implError := fun t => has implErrorTable t
  implCode := fun t => has implCodeTable t
  sigResults := fun n => ((sigTable.find n).map (·.2.2)).getD 0
  methodSet := fun t name => ((typeKey t).bind methodSetTable.find).bind fun l => lookup name l
  functions := fun _ => none
  methods := fun _ => []
  comments := fun n => ((commentTable.find n).getD []).map CommentText.text
  isPrint := fun r => 32 ≤ r && r < 127
  facts := noFacts
/-- The package. -/
def package : Package where
  env := env
  decls := ⟨fun f => ((declTable.find f).map (·.name)).getD [], fun f => ((declTable.find f).map (·.exported)).getD false,
    fun f => (declTable.find f).bind (·.recv), fun f => (declTable.find f).bind (·.doc), fun t => has implCauseTable t,
    fun f => ((declTable.find f).map (·.pos)).getD 0⟩
  types := ⟨fun f => (((declTable.find f).bind (·.recv)).bind typeTable.find).getD (.other 0),
    fun f => ((declTable.find f).map (·.recvNames)).getD [], fun o => (interfaceTable.find o).isSome,
    fun o => (methodNameTable.find o).getD []⟩
  funcs := [0, 1, 2, 3, 4, 5, 6, 7, 8, 9, 10, 11, 12, 13, 14, 15, 16, 17, 18, 19, 20, 21, 22, 23, 24, 25, 26, 27, 28, 29]
  specs := [⟨1856, .named 183, none⟩, ⟨1917, .named 184, none⟩, ⟨1925, .named 185, some [[s34]]⟩]
  ifaces := [⟨s123, 183, .interface 25, [.method ⟨1838, ⟨1832, s44, (some 35)⟩, ⟨[], (some [⟨[], 1834⟩]), 7508⟩, none⟩, .method ⟨1845, ⟨1839, s45,
  (some 36)⟩, ⟨[], (some [⟨[], 1841⟩]), 7724⟩, some (CommentText.text [s122, s85])⟩, .method ⟨1852, ⟨1846, s46, (some 37)⟩, ⟨[], (some [⟨[],
  1848⟩]), 7815⟩, none⟩]⟩, ⟨s126, 184, .interface 24, [.method ⟨1864, ⟨1858, s12, (some 39)⟩, ⟨[], (some [⟨[], 1860⟩]), 8024⟩, some
  (CommentText.text [s90, s71, s72, s93])⟩, .method ⟨1871, ⟨1865, s43, (some 40)⟩, ⟨[], (some [⟨[], 1867⟩]), 8349⟩, some (CommentText.text [s124,
  s95, s71, s72, s71, s72, s71, s93])⟩, .method ⟨1878, ⟨1872, s42, (some 41)⟩, ⟨[], (some [⟨[], 1874⟩]), 8703⟩, some (CommentText.text [s125, s95,
  s71, s72, s71, s93, s71, s72, s71, s93])⟩, .method ⟨1885, ⟨1879, s17, (some 42)⟩, ⟨[], (some [⟨[], 1881⟩]), 8980⟩, some (CommentText.text [s99,
  s100, s71, s72, s71, s101])⟩, .method ⟨1892, ⟨1886, s18, (some 43)⟩, ⟨[], (some [⟨[], 1888⟩]), 9326⟩, some (CommentText.text [s102, s103, s71,
  s72, s71, s93, s104])⟩, .method ⟨1899, ⟨1893, s19, (some 44)⟩, ⟨[], (some [⟨[], 1895⟩]), 9638⟩, some (CommentText.text [s105, s103, s71, s72, s71,
  s93, s106])⟩, .method ⟨1906, ⟨1900, s20, (some 45)⟩, ⟨[], (some [⟨[], 1902⟩]), 9881⟩, some (CommentText.text [s107, s71, s72, s71, s108])⟩,
  .method ⟨1913, ⟨1907, s21, (some 46)⟩, ⟨[], (some [⟨[], 1909⟩]), 10154⟩, some (CommentText.text [s109, s71, s72, s71, s110])⟩]⟩]
  methodObj := fun n => (methodObjTable.find n).getD 0
  conv := ⟨fun o => (underlyingTable.find o).getD (.other 0), fun n => ((sigTable.find n).map (·.1)).getD [],
    fun n => ((sigTable.find n).map (·.2.1)).getD false, fun n => (tupleTable.find n).getD [], fun n => (structTable.find n).getD [],
    fun t n => ((implTable.find n).map fun tr => has tr t).getD false⟩
  top := [
    .func 0,
    .func 1,
    .func 2,
    .func 3,
    .func 4,
    .func 5,
    .func 6,
    .func 7,
    .func 8,
    .func 9,
    .func 10,
    .func 11,
    .func 12,
    .func 13,
    .func 14,
    .func 15,
    .func 16,
    .func 17,
    .func 18,
    .func 19,
    .func 20,
    .func 21,
    .func 22,
    .func 23,
    .func 24,
    .node (.other 1856 [.other 1855 [.ident ⟨1831, s123, (some 34)⟩, .other 1854 [.other 1853 [.other 1838 [.ident ⟨1832, s44, (some 35)⟩, .other
  1837 [.other 1833 [], .other 1836 [.other 1835 [.ident ⟨1834, s127, none⟩]]]], .other 1845 [.ident ⟨1839, s45, (some 36)⟩, .other 1844 [.other
  1840 [], .other 1843 [.other 1842 [.ident ⟨1841, s127, none⟩]]]], .other 1852 [.ident ⟨1846, s46, (some 37)⟩, .other 1851 [.other 1847 [], .other
  1850 [.other 1849 [.ident ⟨1848, s127, none⟩]]]]]]]]),
    .node (.other 1917 [.other 1916 [.ident ⟨1857, s126, (some 38)⟩, .other 1915 [.other 1914 [.other 1864 [.ident ⟨1858, s12, (some 39)⟩, .other
  1863 [.other 1859 [], .other 1862 [.other 1861 [.ident ⟨1860, s127, none⟩]]]], .other 1871 [.ident ⟨1865, s43, (some 40)⟩, .other 1870 [.other
  1866 [], .other 1869 [.other 1868 [.ident ⟨1867, s127, none⟩]]]], .other 1878 [.ident ⟨1872, s42, (some 41)⟩, .other 1877 [.other 1873 [], .other
  1876 [.other 1875 [.ident ⟨1874, s127, none⟩]]]], .other 1885 [.ident ⟨1879, s17, (some 42)⟩, .other 1884 [.other 1880 [], .other 1883 [.other
  1882 [.ident ⟨1881, s127, none⟩]]]], .other 1892 [.ident ⟨1886, s18, (some 43)⟩, .other 1891 [.other 1887 [], .other 1890 [.other 1889 [.ident
  ⟨1888, s127, none⟩]]]], .other 1899 [.ident ⟨1893, s19, (some 44)⟩, .other 1898 [.other 1894 [], .other 1897 [.other 1896 [.ident ⟨1895, s127,
  none⟩]]]], .other 1906 [.ident ⟨1900, s20, (some 45)⟩, .other 1905 [.other 1901 [], .other 1904 [.other 1903 [.ident ⟨1902, s127, none⟩]]]],
  .other 1913 [.ident ⟨1907, s21, (some 46)⟩, .other 1912 [.other 1908 [], .other 1911 [.other 1910 [.ident ⟨1909, s127, none⟩]]]]]]]]),
    .node (.other 1925 [.other 1924 [.ident ⟨1918, s38, (some 1)⟩, .other 1923 [.other 1922 [.other 1921 [.ident ⟨1919, s34, (some 47)⟩, .ident
  ⟨1920, s128, none⟩]]]]]),
    .func 25,
    .func 26,
    .func 27,
    .func 28,
    .func 29]
/-- The run, in one order. -/
def result : Except Stop Outcome := runVerify package Check.source true
/-- What is expected.  The comments in the package say (with facts as `object: fact`):
```
docformat.go:15: Correct: ErrorCodes: hello-error hello-unreachable
docformat.go:28: NewError: ErrorConstructor: {CodeParamPosition:0}
docformat.go:28: NewError: ErrorCodes: unknown-error
docformat.go:39: function "InvalidNoErrors" is exported, but does not declare any error codes
docformat.go:45: function "InvalidNoErrorsWithComment" is exported, but does not declare any error codes
docformat.go:56: CorrectNoErrors1: ErrorCodes:
docformat.go:63: CorrectNoErrors2: ErrorCodes:
docformat.go:73: function "Two" has odd docstring: need a blank line after the 'Errors:' block indicator
docformat.go:85: function "InvalidRepeatedErrorsDeclaration1" has odd docstring: repeated 'Errors:' block indicator
docformat.go:99: function "InvalidRepeatedErrorsDeclaration2" has odd docstring: repeated 'Errors:' block indicator
docformat.go:111: function "InvalidRepeatedErrorsDeclaration3" has odd docstring: repeated 'Errors:' block indicator
docformat.go:123: function "InvalidRepeatedErrorsDeclaration4" has odd docstring: repeated 'Errors:' block indicator
docformat.go:133: function "Five" has odd docstring: mid block, a line leading with '- ' didnt contain a '--' to mark the end of the code name
docformat.go:144: function "Six" has odd docstring: an error code can't be purely whitespace
docformat.go:155: function "Seven" has odd docstring: an error code can't be purely whitespace
docformat.go:164: function "InvalidCodeFormat1" has odd docstring: declared error code has invalid format: should match .*
docformat.go:173: function "InvalidCodeFormat2" has odd docstring: declared error code has invalid format: should match .*
docformat.go:182: function "InvalidCodeFormat3" has odd docstring: declared error code has invalid format: should match .*
docformat.go:191: function "InvalidCodeFormat4" has odd docstring: declared error code has invalid format: should match .*
docformat.go:200: function "InvalidCodeFormat5" has odd docstring: declared error code has invalid format: should match .*
docformat.go:208: function "InvalidConstructor1" has odd docstring: cannot define more than one error code parameter \(found multiple 'param:' inidicators\)
docformat.go:215: function "InvalidConstructor2" has odd docstring: an error code parameter can't be purely whitespace
docformat.go:222: declared error code parameter "code" could not be found in parameter list
docformat.go:229: error code parameter "code" has to be of type string
docformat.go:234: interface method "One" does not declare any error codes
docformat.go:238: interface method "OneWithComment" does not declare any error codes
docformat.go:240: interface method "one" does not declare any error codes
docformat.go:248: interface method "Two" has odd docstring: need a blank line after the 'Errors:' block indicator
docformat.go:258: interface method "Three" has odd docstring: repeated 'Errors:' block indicator
docformat.go:270: interface method "Four" has odd docstring: repeated 'Errors:' block indicator
docformat.go:278: interface method "Five" has odd docstring: mid block, a line leading with '- ' didnt contain a '--' to mark the end of the code name
docformat.go:287: interface method "Six" has odd docstring: an error code can't be purely whitespace
docformat.go:296: interface method "Seven" has odd docstring: an error code can't be purely whitespace
docformat.go:303: interface method "InvalidCodeFormat1" has odd docstring: declared error code has invalid format: should match .*
docformat.go:310: interface method "InvalidCodeFormat2" has odd docstring: declared error code has invalid format: should match .*
docformat.go:313: Error: ErrorType{Field:{Name:"TheCode", Position:0}, Codes:}
``` -/
def expected : Check.Expected where
  tags := []
  ifaces := [{ at_ := 1838, msg := Serum.IfaceMsg.undeclared b!"One" },
    { at_ := 1845, msg := Serum.IfaceMsg.undeclared b!"OneWithComment" },
    { at_ := 1852, msg := Serum.IfaceMsg.undeclared b!"one" },
    { at_ := 1864, msg := Serum.IfaceMsg.oddDocstring b!"Two" (Serum.DocError.needBlankLine) },
    { at_ := 1871, msg := Serum.IfaceMsg.oddDocstring b!"Three" (Serum.DocError.repeatedIndicator) },
    { at_ := 1878, msg := Serum.IfaceMsg.oddDocstring b!"Four" (Serum.DocError.repeatedIndicator) },
    { at_ := 1885, msg := Serum.IfaceMsg.oddDocstring b!"Five" (Serum.DocError.noDashes) },
    { at_ := 1892, msg := Serum.IfaceMsg.oddDocstring b!"Six" (Serum.DocError.blankCode) },
    { at_ := 1899, msg := Serum.IfaceMsg.oddDocstring b!"Seven" (Serum.DocError.blankCode) },
    { at_ := 1906, msg := Serum.IfaceMsg.oddDocstring b!"InvalidCodeFormat1" (Serum.DocError.invalidCode) },
    { at_ := 1913, msg := Serum.IfaceMsg.oddDocstring b!"InvalidCodeFormat2" (Serum.DocError.invalidCode) }]
  signatures := []
  claims := [{ at_ := 1584, msg := Serum.ClaimMsg.exportedUndeclared b!"InvalidNoErrors" },
    { at_ := 1595, msg := Serum.ClaimMsg.exportedUndeclared b!"InvalidNoErrorsWithComment" },
    { at_ := 1638, msg := Serum.ClaimMsg.oddDocstring b!"Two" (Serum.DocError.needBlankLine) },
    { at_ := 1651, msg := Serum.ClaimMsg.oddDocstring b!"InvalidRepeatedErrorsDeclaration1" (Serum.DocError.repeatedIndicator) },
    { at_ := 1664, msg := Serum.ClaimMsg.oddDocstring b!"InvalidRepeatedErrorsDeclaration2" (Serum.DocError.repeatedIndicator) },
    { at_ := 1677, msg := Serum.ClaimMsg.oddDocstring b!"InvalidRepeatedErrorsDeclaration3" (Serum.DocError.repeatedIndicator) },
    { at_ := 1687, msg := Serum.ClaimMsg.oddDocstring b!"InvalidRepeatedErrorsDeclaration4" (Serum.DocError.repeatedIndicator) },
    { at_ := 1700, msg := Serum.ClaimMsg.oddDocstring b!"Five" (Serum.DocError.noDashes) },
    { at_ := 1713, msg := Serum.ClaimMsg.oddDocstring b!"Six" (Serum.DocError.blankCode) },
    { at_ := 1726, msg := Serum.ClaimMsg.oddDocstring b!"Seven" (Serum.DocError.blankCode) },
    { at_ := 1736, msg := Serum.ClaimMsg.oddDocstring b!"InvalidCodeFormat1" (Serum.DocError.invalidCode) },
    { at_ := 1746, msg := Serum.ClaimMsg.oddDocstring b!"InvalidCodeFormat2" (Serum.DocError.invalidCode) },
    { at_ := 1756, msg := Serum.ClaimMsg.oddDocstring b!"InvalidCodeFormat3" (Serum.DocError.invalidCode) },
    { at_ := 1766, msg := Serum.ClaimMsg.oddDocstring b!"InvalidCodeFormat4" (Serum.DocError.invalidCode) },
    { at_ := 1776, msg := Serum.ClaimMsg.oddDocstring b!"InvalidCodeFormat5" (Serum.DocError.invalidCode) },
    { at_ := 1790, msg := Serum.ClaimMsg.oddDocstring b!"InvalidConstructor1" (Serum.DocError.secondParam) },
    { at_ := 1804, msg := Serum.ClaimMsg.oddDocstring b!"InvalidConstructor2" (Serum.DocError.blankParam) },
    { at_ := 1817, msg := Serum.ClaimMsg.paramNotFound b!"code" },
    { at_ := 1819, msg := Serum.ClaimMsg.paramNotString b!"code" }]
  bodies := []
  mismatches := []
  conversions := []
  codes := [(158, [b!"hello-error", b!"hello-unreachable"]),
    (159, [b!"unknown-error"]),
    (164, []),
    (165, [])]
  ctors := [(159, 0)]
  errorTypes := [(185, { codes := [], field := some { name := b!"TheCode", position := 0 } })]
  interfaces := []
  objects := 1385

/-- What functions call, and which literals they visit. -/
def graph : Check.Graph :=
  [([], []), ([], []), ([], []), ([5], []), ([5], []), ([], []), ([], []), ([], []), ([], []), ([], []), ([], []), ([], []), ([], []), ([],
  []), ([], []), ([], []), ([], []), ([], []), ([], []), ([], []), ([], []), ([], []), ([], []), ([], []), ([], []), ([], []), ([], []), ([],
  []), ([], []), ([26], [])]

theorem checked : Check.run package true expected graph = true := by decide +kernel

theorem imports : Check.Tables package.env.facts := tables_noFacts

theorem exported : Check.Tables (Check.factsOf result) := Check.tables checked imports

/-- The facts known before a run: those exported by some run over the imported packages. -/
def Imported (F : Facts) : Prop :=
  F = noFacts

/-- The facts known after a run. -/
def Exports (F : Facts) : Prop := Check.Exports package Imported true F

theorem imports_same (F : Facts) (h : Imported F) : Props.Run.SameFacts package.env.facts F := by
  obtain rfl := h
  exact (.refl _)

theorem exports_same {F : Facts} (h : Exports F) : Props.Run.SameFacts (Check.factsOf result) F :=
  Check.exports_same checked imports imports_same h

/-- **C54**: every run over the package has the expected result. -/
theorem always : Check.Always package Imported true expected :=
  Check.always checked imports imports_same

/-- For the nodes with diagnostics: file, line, and type of node. -/
def nodes : Tree (GoString × Nat × GoString) :=
  (.node (.node (.node (.node (.node Tree.nil 1584 ((b!"docformat.go", 39, b!"FuncDecl")) Tree.nil) 1595 ((b!"docformat.go", 45, b!"FuncDecl")) (.node Tree.nil 1638 ((b!"docformat.go", 73, b!"FuncDecl")) Tree.nil)) 1651 ((b!"docformat.go", 85, b!"FuncDecl")) (.node (.node Tree.nil 1664 ((b!"docformat.go", 99, b!"FuncDecl")) Tree.nil) 1677 ((b!"docformat.go", 111, b!"FuncDecl")) (.node Tree.nil 1687 ((b!"docformat.go", 123, b!"FuncDecl")) Tree.nil))) 1700 ((b!"docformat.go", 133, b!"FuncDecl")) (.node (.node (.node Tree.nil 1713 ((b!"docformat.go", 144, b!"FuncDecl")) Tree.nil) 1726 ((b!"docformat.go", 155, b!"FuncDecl")) (.node Tree.nil 1736 ((b!"docformat.go", 164, b!"FuncDecl")) Tree.nil)) 1746 ((b!"docformat.go", 173, b!"FuncDecl")) (.node (.node Tree.nil 1756 ((b!"docformat.go", 182, b!"FuncDecl")) Tree.nil) 1766 ((b!"docformat.go", 191, b!"FuncDecl")) (.node Tree.nil 1776 ((b!"docformat.go", 200, b!"FuncDecl")) Tree.nil)))) 1790 ((b!"docformat.go", 208, b!"FuncDecl")) (.node (.node (.node (.node Tree.nil 1804 ((b!"docformat.go", 215, b!"FuncDecl")) Tree.nil) 1817 ((b!"docformat.go", 222, b!"FuncDecl")) (.node Tree.nil 1819 ((b!"docformat.go", 229, b!"Ident")) Tree.nil)) 1838 ((b!"docformat.go", 234, b!"Field")) (.node (.node Tree.nil 1845 ((b!"docformat.go", 238, b!"Field")) Tree.nil) 1852 ((b!"docformat.go", 240, b!"Field")) (.node Tree.nil 1864 ((b!"docformat.go", 248, b!"Field")) Tree.nil))) 1871 ((b!"docformat.go", 258, b!"Field")) (.node (.node (.node Tree.nil 1878 ((b!"docformat.go", 270, b!"Field")) Tree.nil) 1885 ((b!"docformat.go", 278, b!"Field")) (.node Tree.nil 1892 ((b!"docformat.go", 287, b!"Field")) Tree.nil)) 1899 ((b!"docformat.go", 296, b!"Field")) (.node (.node Tree.nil 1906 ((b!"docformat.go", 303, b!"Field")) Tree.nil) 1913 ((b!"docformat.go", 310, b!"Field")) Tree.nil))))

/-- The names of the objects named in diagnostics other than by identifiers. -/
def objectNames : Tree GoString :=
  Tree.nil

def names : Names where
  object := fun o => (objectNames.find o).getD []
  kind := fun n => ((nodes.find n).map fun p => p.2.2).getD []

def place (n : NodeId) : GoString × Nat := ((nodes.find n).map fun p => (p.1, p.2.1)).getD ([], 0)

/-- What is printed: file, line and text. -/
def lines : List Check.Line := [(b!"docformat.go", 234, b!"interface method \"One\" does not declare any error codes"),
    (b!"docformat.go", 238, b!"interface method \"OneWithComment\" does not declare any error codes"),
    (b!"docformat.go", 240, b!"interface method \"one\" does not declare any error codes"),
    (b!"docformat.go", 248, b!"interface method \"Two\" has odd docstring: need a blank line after the 'Errors:' block indicator"),
    (b!"docformat.go", 258, b!"interface method \"Three\" has odd docstring: repeated 'Errors:' block indicator"),
    (b!"docformat.go", 270, b!"interface method \"Four\" has odd docstring: repeated 'Errors:' block indicator"),
    (b!"docformat.go", 278, b!"interface method \"Five\" has odd docstring: mid block, a line leading with '- ' didnt contain a '--' to mark the end of the code name"),
    (b!"docformat.go", 287, b!"interface method \"Six\" has odd docstring: an error code can't be purely whitespace"),
    (b!"docformat.go", 296, b!"interface method \"Seven\" has odd docstring: an error code can't be purely whitespace"),
    (b!"docformat.go", 303, b!"interface method \"InvalidCodeFormat1\" has odd docstring: declared error code has invalid format: should match [a-zA-Z][a-zA-Z0-9\\-]*[a-zA-Z0-9]"),
    (b!"docformat.go", 310, b!"interface method \"InvalidCodeFormat2\" has odd docstring: declared error code has invalid format: should match [a-zA-Z][a-zA-Z0-9\\-]*[a-zA-Z0-9]"),
    (b!"docformat.go", 39, b!"function \"InvalidNoErrors\" is exported, but does not declare any error codes"),
    (b!"docformat.go", 45, b!"function \"InvalidNoErrorsWithComment\" is exported, but does not declare any error codes"),
    (b!"docformat.go", 73, b!"function \"Two\" has odd docstring: need a blank line after the 'Errors:' block indicator"),
    (b!"docformat.go", 85, b!"function \"InvalidRepeatedErrorsDeclaration1\" has odd docstring: repeated 'Errors:' block indicator"),
    (b!"docformat.go", 99, b!"function \"InvalidRepeatedErrorsDeclaration2\" has odd docstring: repeated 'Errors:' block indicator"),
    (b!"docformat.go", 111, b!"function \"InvalidRepeatedErrorsDeclaration3\" has odd docstring: repeated 'Errors:' block indicator"),
    (b!"docformat.go", 123, b!"function \"InvalidRepeatedErrorsDeclaration4\" has odd docstring: repeated 'Errors:' block indicator"),
    (b!"docformat.go", 133, b!"function \"Five\" has odd docstring: mid block, a line leading with '- ' didnt contain a '--' to mark the end of the code name"),
    (b!"docformat.go", 144, b!"function \"Six\" has odd docstring: an error code can't be purely whitespace"),
    (b!"docformat.go", 155, b!"function \"Seven\" has odd docstring: an error code can't be purely whitespace"),
    (b!"docformat.go", 164, b!"function \"InvalidCodeFormat1\" has odd docstring: declared error code has invalid format: should match [a-zA-Z][a-zA-Z0-9\\-]*[a-zA-Z0-9]"),
    (b!"docformat.go", 173, b!"function \"InvalidCodeFormat2\" has odd docstring: declared error code has invalid format: should match [a-zA-Z][a-zA-Z0-9\\-]*[a-zA-Z0-9]"),
    (b!"docformat.go", 182, b!"function \"InvalidCodeFormat3\" has odd docstring: declared error code has invalid format: should match [a-zA-Z][a-zA-Z0-9\\-]*[a-zA-Z0-9]"),
    (b!"docformat.go", 191, b!"function \"InvalidCodeFormat4\" has odd docstring: declared error code has invalid format: should match [a-zA-Z][a-zA-Z0-9\\-]*[a-zA-Z0-9]"),
    (b!"docformat.go", 200, b!"function \"InvalidCodeFormat5\" has odd docstring: declared error code has invalid format: should match [a-zA-Z][a-zA-Z0-9\\-]*[a-zA-Z0-9]"),
    (b!"docformat.go", 208, b!"function \"InvalidConstructor1\" has odd docstring: cannot define more than one error code parameter (found multiple 'param:' inidicators)"),
    (b!"docformat.go", 215, b!"function \"InvalidConstructor2\" has odd docstring: an error code parameter can't be purely whitespace"),
    (b!"docformat.go", 222, b!"declared error code parameter \"code\" could not be found in parameter list"),
    (b!"docformat.go", 229, b!"error code parameter \"code\" has to be of type string")]

/-- **C54**: for every run over the package, these lines are printed. -/
theorem prints : Check.Prints package Imported true names place lines :=
  Check.prints always (by decide +kernel)

end Serum.Testdata.docformat
