import Verif.Testdata.Support
import Verif.Testdata.InterfacesInner1
import Verif.Testdata.InterfacesInner2

/-!
# C54: the package analysis/testdata/src/interfaces

Generated by `scripts/conformance/testdata.py` from interfaces.go, interfaces_multifile.go, invalid.go.  Numbers of syntax nodes, objects and types are arbitrary.  The tables hold
what `go/parser` and `go/types` say about the package.
-/

set_option maxRecDepth 100000
set_option linter.all false

namespace Serum.Testdata.interfaces
open Serum Serum.Testdata

def s0 : GoString := b!"InterfaceParam"
def s1 : GoString := b!"false"
def s2 : GoString := b!"some"
def s3 : GoString := b!"InterfaceMethod1"
def s4 : GoString := b!"InterfaceMethod2"
def s5 : GoString := b!"a"
def s6 : GoString := b!"b"
def s7 : GoString := b!"OuterFunction"
def s8 : GoString := b!"Inner1Method1"
def s9 : GoString := b!"Inner1Method2"
def s10 : GoString := b!"Inner1MethodWithoutError"
def s11 : GoString := b!"Inner1CodeNotDeclared"
def s12 : GoString := b!"Inner1NoCodes"
def s13 : GoString := b!"nil"
def s14 : GoString := b!"Inner1YesCodes"
def s15 : GoString := b!"UsingExternalImplAsExternalInterface"
def s16 : GoString := b!"inner1"
def s17 : GoString := b!"FunctionForInterface1"
def s18 : GoString := b!"ReturnReeError"
def s19 : GoString := b!"CallEmbeddedInterface"
def s20 : GoString := b!"param"
def s21 : GoString := b!"SimpleInterfaceMethod"
def s22 : GoString := b!"ConvertEmbeddedInterface"
def s23 : GoString := b!"Code"
def s24 : GoString := b!"e"
def s25 : GoString := b!"TheCode"
def s26 : GoString := b!"Message"
def s27 : GoString := b!"Details"
def s28 : GoString := b!"Cause"
def s29 : GoString := b!"Error"
def s30 : GoString := b!"InvalidReturn"
def s31 : GoString := b!"InvalidReturn2"
def s32 : GoString := b!"InvalidReturn3"
def s33 : GoString := b!"_"
def s34 : GoString := b!"InvalidAssignment"
def s35 : GoString := b!"x"
def s36 : GoString := b!"InvalidAssignment2"
def s37 : GoString := b!"y"
def s38 : GoString := b!"z"
def s39 : GoString := b!"InvalidAssignment3"
def s40 : GoString := b!"ReturnTwoInvalidSimpleImpl"
def s41 : GoString := b!"InvalidAssignment4"
def s42 : GoString := b!"u"
def s43 : GoString := b!"v"
def s44 : GoString := b!"InvalidAssignment5"
def s45 : GoString := b!"x1"
def s46 : GoString := b!"x2"
def s47 : GoString := b!"x3"
def s48 : GoString := b!"x4"
def s49 : GoString := b!"InvalidAssignment6"
def s50 : GoString := b!"si"
def s51 : GoString := b!"ok"
def s52 : GoString := b!"m"
def s53 : GoString := b!"true"
def s54 : GoString := b!"TakingSimpleInterface"
def s55 : GoString := b!"TakingSimpleInterfaceVariadic"
def s56 : GoString := b!"TakingSimpleInterfaceSlice"
def s57 : GoString := b!"InvalidFunctionCall"
def s58 : GoString := b!"slice"
def s59 : GoString := b!"append"
def s60 : GoString := b!"lambda"
def s61 : GoString := b!"InvalidMapIndex"
def s62 : GoString := b!"m2"
def s63 : GoString := b!"InvalidConversion"
def s64 : GoString := b!"SimpleInterface"
def s65 : GoString := b!"incompatible"
def s66 : GoString := b!"s"
def s67 : GoString := b!"val"
def s68 : GoString := b!"RandomInterface"
def s69 : GoString := b!"bs"
def s70 : GoString := b!"InvalidStructCreation"
def s71 : GoString := b!"InvalidSliceCreation"
def s72 : GoString := b!"index"
def s73 : GoString := b!"InvalidArrayCreation"
def s74 : GoString := b!"InvalidMapCreation"
def s75 : GoString := b!"InvalidForRange"
def s76 : GoString := b!"i"
def s77 : GoString := b!"array"
def s78 : GoString := b!"pa"
def s79 : GoString := b!"m1"
def s80 : GoString := b!"si2"
def s81 : GoString := b!"m3"
def s82 : GoString := b!"c"
def s83 : GoString := b!"InvalidForRangeNamed"
def s84 : GoString := b!"pa2"
def s85 : GoString := b!"InvalidChannelOperation"
def s86 : GoString := b!"csi"
def s87 : GoString := b!"csi2"
def s88 : GoString := b!"local1"
def s89 : GoString := b!"local2"
def s90 : GoString := b!"local3"
def s91 : GoString := b!"InvalidLocalImplementation"
def s92 : GoString := b!"local"
def s93 : GoString := b!"I1"
def s94 : GoString := b!"I2"
def s95 : GoString := b!"I3"
def s96 : GoString := b!"GetInterface2InvalidImpl"
def s97 : GoString := b!"NestedInvalidConversions"
def s98 : GoString := b!"i1"
def s99 : GoString := b!"i3"
def s100 : GoString := b!"InvalidEmbeddedInterface"
def s101 : GoString := b!"inner2"
def s102 : GoString := b!"interface-1-error"
def s103 : GoString := b!"interface-3-error"
def s104 : GoString := b!"interface-2-error"
def s105 : GoString := b!"ree-error"
def s106 : GoString := b!"unknown-error"
def s107 : GoString := b!"d"
def s108 : GoString := b!"some-1-error"
def s109 : GoString := b!"local-3-error"
def s110 : GoString := b!"some-2-error"
def s111 : GoString := b!"unknown-1-error"
def s112 : GoString := b!"unknown-2-error"
def s113 : GoString := b!"unknown-3-error"
def s114 : GoString := b!"some string"
def s115 : GoString := b!"OtherMethod"
def s116 : GoString := b!"RandomMethod"
def s117 : GoString := b!"InvalidMethod1"
def s118 : GoString := b!"ExportedCodeNotDeclared"
def s119 : GoString := b!"localCodeNotDeclared"
def s120 : GoString := b!"MethodWithoutError"
def s121 : GoString := b!"// want Inner1Method1:\"ErrorCodes: interface-1-error\""
def s122 : GoString := b!"// want Inner1Method2:\"ErrorCodes: interface-3-error\""
def s123 : GoString := b!"// want Inner1CodeNotDeclared:\"ErrorCodes: interface-1-error\""
def s124 : GoString := b!"// want `function \"Inner1NoCodes\" is exported, but does not declare any error codes`"
def s125 : GoString := b!"// want UsingExternalImplAsExternalInterface:\"ErrorCodes: interface-1-error interface-2-error interface-3-error interface-4-error\""
def s126 : GoString := b!"// want ReturnReeError:\"ErrorCodes: ree-error\""
def s127 : GoString := b!"// want CallEmbeddedInterface:\"ErrorCodes: interface-1-error interface-2-error\""
def s128 : GoString := b!"// want SimpleInterfaceMethod:\"ErrorCodes: unknown-error\""
def s129 : GoString := b!"// want `cannot use expression as \"SimpleInterface\" value: method \"SimpleInterfaceMethod\" declares the following error codes which were not part of the interface: \\[unknown-error]`"
def s130 : GoString := b!"// want I1:\"ErrorCodes: unknown-error\""
def s131 : GoString := b!"// want I2:\"ErrorCodes: unknown-error\""
def s132 : GoString := b!"// want `cannot use expression as \"EmbeddedSimpleInterface\" value: method \"SimpleInterfaceMethod\" declares the following error codes which were not part of the interface: \\[unknown-error]`"
def s133 : GoString := b!"// Errors:"
def s134 : GoString := b!"//"
def s135 : GoString := b!"//    - interface-1-error --"
def s136 : GoString := b!"//    - interface-2-error --"
def s137 : GoString := b!"//    - interface-3-error --"
def s138 : GoString := b!"//    - interface-4-error --"
def s139 : GoString := b!"//    - interface-1-error -- could potentially be returned"
def s140 : GoString := b!"//    - ree-error --"
def s141 : GoString := b!"// InterfaceMethod is a method used to implement SimpleInterface,"
def s142 : GoString := b!"// but the declared (and actual) error codes are not a subset of the ones declared in the interface."
def s143 : GoString := b!"//    - unknown-error -- is always returned making InvalidSimpleImpl an invalid implementation of the interface"
def s144 : GoString := b!"//    - unknown-error --"
def s145 : GoString := b!"//    - unknown-1-error --"
def s146 : GoString := b!"//    - unknown-2-error --"
def s147 : GoString := b!"//    - unknown-3-error --"
def s148 : GoString := b!"// SimpleInterfaceMethod is a method returning an error with error codes declared in doc."
def s149 : GoString := b!"//    - interface-2-error -- could potentially be returned"
def s150 : GoString := b!"// InterfaceMethod1 is a method returning an error with error codes declared in doc."
def s151 : GoString := b!"//    - interface-3-error -- could potentially be returned"
def s152 : GoString := b!"// MethodWithoutError is just some method that does not return an error,"
def s153 : GoString := b!"// to test if it is correctly ignored in the analysis."
def s154 : GoString := b!"SomeInterface"
def s155 : GoString := b!"WithInvalidMethods"
def s156 : GoString := b!"EmbeddedSimpleInterface"
def s157 : GoString := b!"SimpleInterface2"
def s158 : GoString := b!"OtherSimpleInterface"
def s159 : GoString := b!"EmbeddedMultipleInterfaces"
def s160 : GoString := b!"EmbeddedOtherPackage"
def s161 : GoString := b!"EmbeddedOtherPackage2"
def s162 : GoString := b!"EmbeddedOtherPackage3"
def s163 : GoString := b!"//    - interface-5-error --"
def s164 : GoString := b!"EmbeddedSimpleInterface2"
def s165 : GoString := b!"ReeError"
def s166 : GoString := b!"EmbeddedMultipleInterfaces2"
def s167 : GoString := b!"EmbeddedSimpleInterfaceOtherFile"
def s168 : GoString := b!"EmbeddedSimpleInterface2OtherFile"
def s169 : GoString := b!"InterFaceWithoutErrorCodeDeclarations"
def s170 : GoString := b!"//    - interface-1-error    -- could potentially be returned"
def s171 : GoString := b!"//    - incompatible-1-error -- could potentially be returned"
def s172 : GoString := b!"//    - incompatible-2-error -- could potentially be returned"
def s173 : GoString := b!"SimpleInterfaceIncompatible"
def s174 : GoString := b!"//    - local-1-error --"
def s175 : GoString := b!"//    - local-2-error --"
def s176 : GoString := b!"//    - local-3-error --"
def s177 : GoString := b!"//    - local-4-error --"
def s178 : GoString := b!"someLocalInterface"
def s179 : GoString := b!"// Errors: none"
def s180 : GoString := b!"Interface1"
def s181 : GoString := b!"Interface2"
def s182 : GoString := b!"Interface3"
def s183 : GoString := b!"error"
def s184 : GoString := b!"string"
def s185 : GoString := b!"ImplementInner1Interface1"
def s186 : GoString := b!"ImplementInner1Interface2"
def s187 : GoString := b!"ImplementInner1Interface3"
def s188 : GoString := b!"InvalidSimpleImpl"
def s189 : GoString := b!"SimpleInterfaceMap"
def s190 : GoString := b!"BoxSimpleInterface"
def s191 : GoString := b!"Box2SimpleInterface"
def s192 : GoString := b!"int"
def s193 : GoString := b!"Box3SimpleInterface"
def s194 : GoString := b!"interfaceSlice"
def s195 : GoString := b!"interfaceSlice2"
def s196 : GoString := b!"interfaceArray"
def s197 : GoString := b!"interfaceArray2"
def s198 : GoString := b!"interfaceMap"
def s199 : GoString := b!"interfaceMap2"
def s200 : GoString := b!"InvalidSimpleImplSlice"
def s201 : GoString := b!"InvalidSimpleImplMap1"
def s202 : GoString := b!"InvalidSimpleImplMap2"
def s203 : GoString := b!"InvalidSimpleImplMap3"
def s204 : GoString := b!"InvalidSimpleImplArray"
def s205 : GoString := b!"InvalidSimpleImplPointerToArray"
def s206 : GoString := b!"InvalidSimpleImplChan"
def s207 : GoString := b!"SimpleInterfaceChan"
def s208 : GoString := b!"someLocalInterfaceInvalidImpl"
def s209 : GoString := b!"Interface1InvalidImpl"
def s210 : GoString := b!"Interface2InvalidImpl"
def s211 : GoString := b!"Interface3InvalidImpl"
/-- interfaces.go:100: `func InterfaceParam` -/
def f0 : FuncDef := ⟨8389, some ⟨8359, s0, (some 23)⟩, ⟨[⟨[⟨8360, s2, (some 24)⟩], 8361⟩, ⟨[⟨8362, s5, (some 25)⟩, ⟨8363, s6, (some 26)⟩], 8364⟩],
  (some [⟨[], 8368⟩]), 4182⟩, some [.other 8380 [.ident ⟨8372, s1, none⟩, .other 8379 [.ret 8378 [.call 8377 (.selector 8376 (.ident ⟨8374, s2,
  (some 24)⟩) ⟨8375, s3, none⟩) []]]], .ret 8387 [.call 8386 (.selector 8383 (.ident ⟨8381, s2, (some 24)⟩) ⟨8382, s4, none⟩) [.ident ⟨8384, s5,
  (some 25)⟩, .ident ⟨8385, s6, (some 26)⟩]]], 4188, 4384⟩
/-- interfaces.go:113: `func OuterFunction` -/
def f1 : FuncDef := ⟨8423, some ⟨8390, s7, (some 27)⟩, ⟨[⟨[⟨8391, s5, (some 28)⟩, ⟨8392, s6, (some 29)⟩], 8393⟩], (some [⟨[], 8396⟩]), 4548⟩, some
  [.other 8412 [.ident ⟨8400, s1, none⟩, .other 8411 [.ret 8410 [.call 8409 (.ident ⟨8402, s0, (some 23)⟩) [.compositeLit 8406 [], .ident ⟨8407, s5,
  (some 28)⟩, .ident ⟨8408, s6, (some 29)⟩]]]], .ret 8421 [.call 8420 (.ident ⟨8413, s0, (some 23)⟩) [.compositeLit 8417 [], .ident ⟨8418, s5, (some
  28)⟩, .ident ⟨8419, s6, (some 29)⟩]]], 4554, 4791⟩
/-- interfaces.go:129: `func Inner1Method1` -/
def f2 : FuncDef := ⟨8452, some ⟨8440, s8, none⟩, ⟨[], (some [⟨[], 8442⟩]), 5003⟩, some [.ret 8450 [.unary 8449 true (.compositeLit 8448 [.basicLit
  8447])]], 5009, 5102⟩
/-- interfaces.go:136: `func Inner1Method2` -/
def f3 : FuncDef := ⟨8477, some ⟨8456, s9, none⟩, ⟨[⟨[⟨8457, s5, (some 34)⟩, ⟨8458, s6, (some 35)⟩], 8459⟩], (some [⟨[], 8465⟩]), 5207⟩, some [.ret
  8475 [.unary 8474 true (.compositeLit 8473 [.basicLit 8472])]], 5221, 5321⟩
/-- interfaces.go:140: `func Inner1MethodWithoutError` -/
def f4 : FuncDef := ⟨8494, some ⟨8481, s10, none⟩, ⟨[⟨[⟨8482, s5, (some 36)⟩, ⟨8483, s6, (some 37)⟩], 8484⟩], (some [⟨[], 8487⟩]), 5394⟩, some [.ret
  8492 [.ident ⟨8491, s5, (some 36)⟩]], 5401, 5414⟩
/-- interfaces.go:147: `func Inner1CodeNotDeclared` -/
def f5 : FuncDef := ⟨8510, some ⟨8498, s11, none⟩, ⟨[], (some [⟨[], 8500⟩]), 5516⟩, some [.ret 8508 [.unary 8507 true (.compositeLit 8506 [.basicLit
  8505])]], 5522, 5623⟩
/-- interfaces.go:151: `func Inner1NoCodes` -/
def f6 : FuncDef := ⟨8523, some ⟨8514, s12, none⟩, ⟨[], (some [⟨[], 8516⟩]), 5674⟩, some [.ret 8521 [.ident ⟨8520, s13, none⟩]], 5680, 5780⟩
/-- interfaces.go:159: `func Inner1YesCodes` -/
def f7 : FuncDef := ⟨8548, some ⟨8527, s14, none⟩, ⟨[], (some [⟨[], 8529⟩]), 5934⟩, some [.other 8541 [.ident ⟨8533, s1, none⟩, .other 8540 [.ret
  8539 [.unary 8538 true (.compositeLit 8537 [.basicLit 8536])]]], .ret 8546 [.unary 8545 true (.compositeLit 8544 [.basicLit 8543])]], 5940, 6104⟩
/-- interfaces.go:172: `func UsingExternalImplAsExternalInterface` -/
def f8 : FuncDef := ⟨8571, some ⟨8549, s15, (some 38)⟩, ⟨[⟨[⟨8550, s5, (some 39)⟩, ⟨8551, s6, (some 40)⟩], 8552⟩], (some [⟨[], 8555⟩]), 6291⟩, some
  [.ret 8569 [.call 8568 (.selector 8561 (.ident ⟨8559, s16, none⟩) ⟨8560, s17, none⟩) [.ident ⟨8562, s5, (some 39)⟩, .ident ⟨8563, s6, (some 40)⟩,
  .compositeLit 8567 []]]], 6297, 6510⟩
/-- interfaces.go:187: `func ReturnReeError` -/
def f9 : FuncDef := ⟨8626, some ⟨8614, s18, (some 47)⟩, ⟨[], (some [⟨[], 8616⟩]), 6691⟩, some [.ret 8624 [.unary 8623 true (.compositeLit 8622
  [.basicLit 8621])]], 6700, 6778⟩
/-- interfaces.go:195: `func CallEmbeddedInterface` -/
def f10 : FuncDef := ⟨8642, some ⟨8627, s19, (some 48)⟩, ⟨[⟨[⟨8628, s20, (some 49)⟩], 8629⟩], (some [⟨[], 8632⟩]), 6910⟩, some [.ret 8640 [.call
  8639 (.selector 8638 (.ident ⟨8636, s20, (some 49)⟩) ⟨8637, s21, none⟩) []]], 6916, 7037⟩
/-- interfaces.go:199: `func ConvertEmbeddedInterface` -/
def f11 : FuncDef := ⟨8655, some ⟨8643, s22, (some 50)⟩, ⟨[⟨[⟨8644, s20, (some 51)⟩], 8645⟩], (some [⟨[], 8648⟩]), 7100⟩, some [.ret 8653 [.ident
  ⟨8652, s20, (some 51)⟩]], 7116, 7133⟩
/-- interfaces.go:207: `func Code` -/
def f12 : FuncDef := ⟨8680, some ⟨8669, s23, none⟩, ⟨[], (some [⟨[], 8671⟩]), 7267⟩, some [.ret 8678 [.selector 8677 (.ident ⟨8675, s24, (some 53)⟩)
  ⟨8676, s25, none⟩]], 7288, 7308⟩
/-- interfaces.go:208: `func Message` -/
def f13 : FuncDef := ⟨8697, some ⟨8686, s26, none⟩, ⟨[], (some [⟨[], 8688⟩]), 7335⟩, some [.ret 8695 [.selector 8694 (.ident ⟨8692, s24, (some 54)⟩)
  ⟨8693, s25, none⟩]], 7353, 7373⟩
/-- interfaces.go:209: `func Details` -/
def f14 : FuncDef := ⟨8714, some ⟨8703, s27, none⟩, ⟨[], (some [⟨[], 8707⟩]), 7400⟩, some [.ret 8712 [.ident ⟨8711, s13, none⟩]], 7418, 7432⟩
/-- interfaces.go:210: `func Cause` -/
def f15 : FuncDef := ⟨8729, some ⟨8720, s28, none⟩, ⟨[], (some [⟨[], 8722⟩]), 7457⟩, some [.ret 8727 [.ident ⟨8726, s13, none⟩]], 7477, 7491⟩
/-- interfaces.go:211: `func Error` -/
def f16 : FuncDef := ⟨8747, some ⟨8735, s29, none⟩, ⟨[], (some [⟨[], 8737⟩]), 7516⟩, some [.ret 8745 [.call 8744 (.selector 8743 (.ident ⟨8741, s24,
  (some 57)⟩) ⟨8742, s26, none⟩) []]], 7536, 7558⟩
/-- invalid.go:16: `func SimpleInterfaceMethod` -/
def f17 : FuncDef := ⟨8988, some ⟨8976, s21, none⟩, ⟨[], (some [⟨[], 8978⟩]), 9476⟩, some [.ret 8986 [.unary 8985 true (.compositeLit 8984
  [.basicLit 8983])]], 9482, 9575⟩
/-- invalid.go:20: `func InvalidReturn` -/
def f18 : FuncDef := ⟨8999, some ⟨8989, s30, (some 66)⟩, ⟨[], (some [⟨[], 8991⟩]), 9598⟩, some [.ret 8997 [.compositeLit 8996 []]], 9614, 9826⟩
/-- invalid.go:24: `func InvalidReturn2` -/
def f19 : FuncDef := ⟨9016, some ⟨9000, s31, (some 67)⟩, ⟨[], (some [⟨[], 9002⟩, ⟨[], 9003⟩, ⟨[], 9004⟩]), 9850⟩, some [.ret 9014 [.basicLit 9010,
  .basicLit 9011, .compositeLit 9013 []]], 9878, 10097⟩
/-- invalid.go:28: `func InvalidReturn3` -/
def f20 : FuncDef := ⟨9036, some ⟨9017, s32, (some 68)⟩, ⟨[], (some [⟨[⟨9019, s33, (some 69)⟩, ⟨9020, s33, (some 70)⟩], 9021⟩, ⟨[⟨9022, s33, (some
  71)⟩, ⟨9023, s33, (some 72)⟩], 9024⟩]), 10121⟩, some [.ret 9034 [.basicLit 9029, .basicLit 9030, .ident ⟨9031, s13, none⟩, .compositeLit 9033
  []]], 10154, 10378⟩
/-- invalid.go:32: `func InvalidAssignment` -/
def f21 : FuncDef := ⟨9057, some ⟨9037, s34, (some 73)⟩, ⟨[], (some [⟨[], 9040⟩]), 10405⟩, some [.other 9048 [.other 9047 [.valueSpec 9046 [⟨9044,
  s35, (some 74)⟩] (some 9045) []]], .assign 9052 [.ident ⟨9049, s35, (some 74)⟩] [.compositeLit 9051 []], .ret 9055 [.unary 9054 true (.ident
  ⟨9053, s35, (some 74)⟩)]], 10422, 10665⟩
/-- invalid.go:38: `func InvalidAssignment2` -/
def f22 : FuncDef := ⟨9088, some ⟨9058, s36, (some 75)⟩, ⟨[], none, 0⟩, some [.other 9066 [.other 9065 [.valueSpec 9064 [⟨9061, s35, (some 76)⟩,
  ⟨9062, s37, (some 77)⟩] (some 9063) []]], .other 9071 [.other 9070 [.valueSpec 9069 [⟨9067, s38, (some 78)⟩] (some 9068) []]], .assign 9079
  [.ident ⟨9072, s35, (some 76)⟩, .ident ⟨9073, s37, (some 77)⟩, .ident ⟨9074, s38, (some 78)⟩] [.basicLit 9075, .basicLit 9076, .compositeLit 9078
  []], .assign 9086 [.ident ⟨9080, s33, none⟩, .ident ⟨9081, s33, none⟩, .ident ⟨9082, s33, none⟩] [.ident ⟨9083, s35, (some 76)⟩, .ident ⟨9084,
  s37, (some 77)⟩, .ident ⟨9085, s38, (some 78)⟩]], 10693, 10970⟩
/-- invalid.go:45: `func InvalidAssignment3` -/
def f23 : FuncDef := ⟨9112, some ⟨9089, s39, (some 79)⟩, ⟨[], (some [⟨[⟨9091, s35, (some 80)⟩], 9092⟩, ⟨[⟨9093, s37, (some 81)⟩, ⟨9094, s38, (some
  82)⟩], 9095⟩]), 10998⟩, some [.assign 9102 [.ident ⟨9100, s35, (some 80)⟩] [.basicLit 9101], .assign 9105 [.ident ⟨9103, s37, (some 81)⟩] [.ident
  ⟨9104, s13, none⟩], .assign 9109 [.ident ⟨9106, s38, (some 82)⟩] [.compositeLit 9108 []], .ret 9110 []], 11028, 11261⟩
/-- invalid.go:52: `func ReturnTwoInvalidSimpleImpl` -/
def f24 : FuncDef := ⟨9127, some ⟨9113, s40, (some 83)⟩, ⟨[], (some [⟨[], 9115⟩, ⟨[], 9116⟩]), 11297⟩, some [.ret 9125 [.compositeLit 9122 [],
  .compositeLit 9124 []]], 11336, 11388⟩
/-- invalid.go:56: `func InvalidAssignment4` -/
def f25 : FuncDef := ⟨9163, some ⟨9128, s41, (some 84)⟩, ⟨[], none, 0⟩, some [.other 9135 [.other 9134 [.valueSpec 9133 [⟨9131, s37, (some 85)⟩]
  (some 9132) []]], .assign 9140 [.ident ⟨9136, s35, (some 86)⟩, .ident ⟨9137, s37, (some 85)⟩] [.call 9139 (.ident ⟨9138, s40, (some 83)⟩) []],
  .assign 9145 [.ident ⟨9141, s33, none⟩, .ident ⟨9142, s33, none⟩] [.ident ⟨9143, s35, (some 86)⟩, .ident ⟨9144, s37, (some 85)⟩], .other 9151
  [.other 9150 [.valueSpec 9149 [⟨9146, s42, (some 87)⟩, ⟨9147, s43, (some 88)⟩] (some 9148) []]], .assign 9156 [.ident ⟨9152, s42, (some 87)⟩,
  .ident ⟨9153, s43, (some 88)⟩] [.call 9155 (.ident ⟨9154, s40, (some 83)⟩) []], .assign 9161 [.ident ⟨9157, s33, none⟩, .ident ⟨9158, s33, none⟩]
  [.ident ⟨9159, s42, (some 87)⟩, .ident ⟨9160, s43, (some 88)⟩]], 11416, 12116⟩
/-- invalid.go:69: `func InvalidAssignment5` -/
def f26 : FuncDef := ⟨9203, some ⟨9164, s44, (some 89)⟩, ⟨[], none, 0⟩, some [.other 9173 [.other 9172 [.valueSpec 9171 [⟨9167, s45, (some 90)⟩]
  (some 9168) [.compositeLit 9170 []]]], .other 9184 [.other 9183 [.valueSpec 9182 [⟨9174, s46, (some 91)⟩, ⟨9175, s47, (some 92)⟩, ⟨9176, s33,
  (some 93)⟩] (some 9177) [.ident ⟨9178, s13, none⟩, .compositeLit 9180 [], .ident ⟨9181, s13, none⟩]]], .other 9192 [.other 9191 [.valueSpec 9190
  [⟨9185, s48, (some 94)⟩, ⟨9186, s33, (some 95)⟩] (some 9187) [.call 9189 (.ident ⟨9188, s40, (some 83)⟩) []]]], .assign 9201 [.ident ⟨9193, s33,
  none⟩, .ident ⟨9194, s33, none⟩, .ident ⟨9195, s33, none⟩, .ident ⟨9196, s33, none⟩] [.ident ⟨9197, s45, (some 90)⟩, .ident ⟨9198, s46, (some
  91)⟩, .ident ⟨9199, s47, (some 92)⟩, .ident ⟨9200, s48, (some 94)⟩]], 12144, 13092⟩
/-- invalid.go:79: `func InvalidAssignment6` -/
def f27 : FuncDef := ⟨9274, some ⟨9204, s49, (some 96)⟩, ⟨[⟨[⟨9205, s52, (some 97)⟩], 9208⟩], none, 0⟩, some [.other 9216 [.other 9215 [.valueSpec
  9214 [⟨9212, s50, (some 98)⟩] (some 9213) []]], .other 9221 [.other 9220 [.valueSpec 9219 [⟨9217, s51, (some 99)⟩] (some 9218) []]], .other 9233
  [.assign 9226 [.ident ⟨9222, s50, (some 98)⟩] [.index 9225 (.ident ⟨9223, s52, (some 97)⟩) (.basicLit 9224)], .ident ⟨9227, s53, none⟩, .other
  9232 [.assign 9231 [.ident ⟨9229, s33, none⟩] [.ident ⟨9230, s50, (some 98)⟩]]], .other 9246 [.assign 9239 [.ident ⟨9234, s50, (some 98)⟩, .ident
  ⟨9235, s51, (some 99)⟩] [.index 9238 (.ident ⟨9236, s52, (some 97)⟩) (.basicLit 9237)], .ident ⟨9240, s51, (some 99)⟩, .other 9245 [.assign 9244
  [.ident ⟨9242, s33, none⟩] [.ident ⟨9243, s50, (some 98)⟩]]], .other 9259 [.assign 9252 [.ident ⟨9247, s50, (some 98)⟩, .ident ⟨9248, s51, (some
  99)⟩] [.index 9251 (.ident ⟨9249, s52, (some 97)⟩) (.basicLit 9250)], .ident ⟨9253, s51, (some 99)⟩, .other 9258 [.assign 9257 [.ident ⟨9255, s33,
  none⟩] [.ident ⟨9256, s50, (some 98)⟩]]], .other 9272 [.assign 9265 [.ident ⟨9260, s50, (some 98)⟩, .ident ⟨9261, s51, (some 99)⟩] [.index 9264
  (.ident ⟨9262, s52, (some 97)⟩) (.basicLit 9263)], .other 9271 [.caseClause 9270 [.ident ⟨9266, s51, (some 99)⟩] [.assign 9269 [.ident ⟨9267, s33,
  none⟩] [.ident ⟨9268, s50, (some 98)⟩]]]]], 13147, 14068⟩
/-- invalid.go:99: `func TakingSimpleInterface` -/
def f28 : FuncDef := ⟨9286, some ⟨9275, s54, (some 100)⟩, ⟨[⟨[⟨9276, s33, (some 101)⟩, ⟨9277, s33, (some 102)⟩], 9278⟩, ⟨[⟨9279, s33, (some 103)⟩],
  9280⟩], none, 0⟩, some [], 14126, 14128⟩
/-- invalid.go:101: `func TakingSimpleInterfaceVariadic` -/
def f29 : FuncDef := ⟨9298, some ⟨9287, s55, (some 104)⟩, ⟨[⟨[⟨9288, s33, (some 105)⟩], 9289⟩, ⟨[⟨9290, s33, (some 106)⟩], 9292⟩], none, 0⟩, some
  [], 14194, 14196⟩
/-- invalid.go:103: `func TakingSimpleInterfaceSlice` -/
def f30 : FuncDef := ⟨9310, some ⟨9299, s56, (some 107)⟩, ⟨[⟨[⟨9300, s33, (some 108)⟩], 9301⟩, ⟨[⟨9302, s33, (some 109)⟩], 9304⟩], none, 0⟩, some
  [], 14258, 14260⟩
/-- invalid.go:105: `func InvalidFunctionCall` -/
def f31 : FuncDef := ⟨9409, some ⟨9311, s57, (some 110)⟩, ⟨[], none, 0⟩, some [.assign 9317 [.ident ⟨9314, s20, (some 111)⟩] [.compositeLit 9316
  []], .other 9323 [.call 9322 (.ident ⟨9318, s54, (some 100)⟩) [.basicLit 9319, .basicLit 9320, .ident ⟨9321, s20, (some 111)⟩]], .other 9329
  [.call 9328 (.ident ⟨9324, s54, (some 100)⟩) [.basicLit 9325, .basicLit 9326, .ident ⟨9327, s13, none⟩]], .other 9336 [.call 9335 (.ident ⟨9330,
  s55, (some 104)⟩) [.unary 9332 false (.basicLit 9331), .ident ⟨9333, s13, none⟩, .ident ⟨9334, s20, (some 111)⟩]], .other 9344 [.call 9343 (.ident
  ⟨9337, s55, (some 104)⟩) [.unary 9339 false (.basicLit 9338), .ident ⟨9340, s20, (some 111)⟩, .ident ⟨9341, s13, none⟩, .ident ⟨9342, s13,
  none⟩]], .other 9352 [.call 9351 (.ident ⟨9345, s55, (some 104)⟩) [.unary 9347 false (.basicLit 9346), .ident ⟨9348, s13, none⟩, .ident ⟨9349,
  s13, none⟩, .ident ⟨9350, s13, none⟩]], .other 9361 [.call 9360 (.ident ⟨9353, s56, (some 107)⟩) [.basicLit 9354, .compositeLit 9359 [.ident
  ⟨9357, s13, none⟩, .ident ⟨9358, s13, none⟩]]], .other 9366 [.call 9365 (.ident ⟨9362, s56, (some 107)⟩) [.basicLit 9363, .ident ⟨9364, s13,
  none⟩]], .other 9372 [.other 9371 [.valueSpec 9370 [⟨9367, s58, (some 112)⟩] (some 9369) []]], .assign 9378 [.ident ⟨9373, s58, (some 112)⟩]
  [.call 9377 (.ident ⟨9374, s59, none⟩) [.ident ⟨9375, s58, (some 112)⟩, .ident ⟨9376, s20, (some 111)⟩]], .assign 9386 [.ident ⟨9379, s58, (some
  112)⟩] [.call 9385 (.ident ⟨9380, s59, none⟩) [.ident ⟨9381, s58, (some 112)⟩, .ident ⟨9382, s13, none⟩, .ident ⟨9383, s13, none⟩, .ident ⟨9384,
  s20, (some 111)⟩]], .assign 9393 [.ident ⟨9387, s58, (some 112)⟩] [.call 9392 (.ident ⟨9388, s59, none⟩) [.ident ⟨9389, s58, (some 112)⟩, .ident
  ⟨9390, s13, none⟩, .ident ⟨9391, s13, none⟩]], .assign 9402 [.ident ⟨9394, s60, (some 113)⟩] [.funcLit 9401 32 ⟨[⟨[⟨9395, s33, (some 114)⟩],
  9396⟩], none, 0⟩ []], .other 9407 [.call 9406 (.ident ⟨9403, s60, (some 113)⟩) [.compositeLit 9405 []]]], 14289, 16009⟩
/-- invalid.go:122: a function literal -/
def f32 : FuncDef := ⟨9401, none, ⟨[⟨[⟨9395, s33, (some 114)⟩], 9396⟩], none, 0⟩, some [], 15795, 15797⟩
/-- invalid.go:128: `func InvalidMapIndex` -/
def f33 : FuncDef := ⟨9462, some ⟨9417, s61, (some 116)⟩, ⟨[⟨[⟨9418, s52, (some 117)⟩], 9422⟩, ⟨[⟨9423, s62, (some 118)⟩], 9424⟩, ⟨[⟨9425, s58,
  (some 119)⟩], 9428⟩], none, 0⟩, some [.assign 9439 [.ident ⟨9434, s33, none⟩] [.index 9438 (.ident ⟨9435, s52, (some 117)⟩) (.compositeLit 9437
  [])], .assign 9444 [.ident ⟨9440, s33, none⟩] [.index 9443 (.ident ⟨9441, s52, (some 117)⟩) (.ident ⟨9442, s13, none⟩)], .assign 9450 [.ident
  ⟨9445, s33, none⟩] [.index 9449 (.ident ⟨9446, s62, (some 118)⟩) (.compositeLit 9448 [])], .assign 9455 [.ident ⟨9451, s33, none⟩] [.index 9454
  (.ident ⟨9452, s62, (some 118)⟩) (.ident ⟨9453, s13, none⟩)], .assign 9460 [.ident ⟨9456, s33, none⟩] [.index 9459 (.ident ⟨9457, s58, (some
  119)⟩) (.basicLit 9458)]], 16165, 16691⟩
/-- invalid.go:155: `func InvalidConversion` -/
def f34 : FuncDef := ⟨9561, some ⟨9484, s63, (some 124)⟩, ⟨[⟨[⟨9485, s65, (some 125)⟩], 9486⟩, ⟨[⟨9487, s69, (some 126)⟩], 9488⟩], none, 0⟩, some
  [.assign 9498 [.ident ⟨9493, s33, none⟩] [.call 9497 (.ident ⟨9494, s64, none⟩) [.compositeLit 9496 []]], .assign 9503 [.ident ⟨9499, s33, none⟩]
  [.call 9502 (.ident ⟨9500, s64, none⟩) [.ident ⟨9501, s13, none⟩]], .assign 9508 [.ident ⟨9504, s33, none⟩] [.call 9507 (.ident ⟨9505, s64, none⟩)
  [.ident ⟨9506, s65, (some 125)⟩]], .assign 9513 [.ident ⟨9509, s33, none⟩] [.typeAssert 9512 (.ident ⟨9510, s65, (some 125)⟩) (some 9511)],
  .assign 9519 [.ident ⟨9514, s66, (some 127)⟩, .ident ⟨9515, s51, (some 128)⟩] [.typeAssert 9518 (.ident ⟨9516, s65, (some 125)⟩) (some 9517)],
  .assign 9524 [.ident ⟨9520, s33, none⟩, .ident ⟨9521, s33, none⟩] [.ident ⟨9522, s66, (some 127)⟩, .ident ⟨9523, s51, (some 128)⟩], .assign 9531
  [.ident ⟨9525, s33, none⟩] [.typeAssert 9530 (.typeAssert 9528 (.ident ⟨9526, s65, (some 125)⟩) (some 9527)) (some 9529)], .other 9536 [.other
  9535 [.valueSpec 9534 [⟨9532, s50, (some 129)⟩] (some 9533) []]], .typeSwitch 9556 [] (.assign 9540 [.ident ⟨9537, s67, (some 130)⟩] [.typeAssert
  9539 (.ident ⟨9538, s65, (some 125)⟩) none]) [.caseClause 9545 [.ident ⟨9541, s68, (some 122)⟩] [.assign 9544 [.ident ⟨9542, s33, none⟩] [.ident
  ⟨9543, s67, (some 130)⟩]], .caseClause 9550 [.ident ⟨9546, s64, none⟩] [.assign 9549 [.ident ⟨9547, s50, (some 129)⟩] [.ident ⟨9548, s67, (some
  130)⟩]], .caseClause 9554 [] [.assign 9553 [.ident ⟨9551, s33, none⟩] [.ident ⟨9552, s67, (some 130)⟩]]], .assign 9559 [.ident ⟨9557, s33, none⟩]
  [.ident ⟨9558, s50, (some 129)⟩]], 17389, 18857⟩
/-- invalid.go:191: `func InvalidStructCreation` -/
def f35 : FuncDef := ⟨9856, some ⟨9599, s70, (some 144)⟩, ⟨[], none, 0⟩, some [.assign 9607 [.ident ⟨9602, s33, none⟩] [.compositeLit 9606
  [.compositeLit 9605 []]], .assign 9612 [.ident ⟨9608, s33, none⟩] [.compositeLit 9611 [.ident ⟨9610, s13, none⟩]], .assign 9620 [.ident ⟨9613,
  s33, none⟩] [.compositeLit 9619 [.keyValue 9618 (.ident ⟨9615, s50, none⟩) (.compositeLit 9617 [])]], .assign 9627 [.ident ⟨9621, s33, none⟩]
  [.compositeLit 9626 [.keyValue 9625 (.ident ⟨9623, s50, none⟩) (.ident ⟨9624, s13, none⟩)]], .assign 9631 [.ident ⟨9628, s33, none⟩]
  [.compositeLit 9630 []], .assign 9638 [.ident ⟨9632, s33, none⟩] [.unary 9637 true (.compositeLit 9636 [.compositeLit 9635 []])], .assign 9648
  [.ident ⟨9639, s33, none⟩] [.compositeLit 9647 [.basicLit 9641, .basicLit 9642, .compositeLit 9644 [], .ident ⟨9645, s13, none⟩, .ident ⟨9646,
  s13, none⟩]], .assign 9658 [.ident ⟨9649, s33, none⟩] [.compositeLit 9657 [.basicLit 9651, .basicLit 9652, .ident ⟨9653, s13, none⟩, .ident ⟨9654,
  s13, none⟩, .compositeLit 9656 []]], .assign 9670 [.ident ⟨9659, s33, none⟩] [.compositeLit 9669 [.basicLit 9661, .basicLit 9662, .compositeLit
  9664 [], .compositeLit 9666 [], .compositeLit 9668 []]], .assign 9674 [.ident ⟨9671, s33, none⟩] [.compositeLit 9673 []], .assign 9682 [.ident
  ⟨9675, s33, none⟩] [.compositeLit 9681 [.basicLit 9677, .basicLit 9678, .ident ⟨9679, s13, none⟩, .ident ⟨9680, s13, none⟩]], .assign 9691 [.ident
  ⟨9683, s33, none⟩] [.compositeLit 9690 [.basicLit 9685, .basicLit 9686, .ident ⟨9687, s13, none⟩, .compositeLit 9689 []]], .assign 9708 [.ident
  ⟨9692, s33, none⟩] [.compositeLit 9707 [.keyValue 9696 (.ident ⟨9694, s42, none⟩) (.basicLit 9695), .keyValue 9699 (.ident ⟨9697, s43, none⟩)
  (.basicLit 9698), .keyValue 9702 (.ident ⟨9700, s35, none⟩) (.ident ⟨9701, s13, none⟩), .keyValue 9706 (.ident ⟨9703, s37, none⟩) (.compositeLit
  9705 [])]], .assign 9722 [.ident ⟨9709, s33, none⟩] [.compositeLit 9721 [.keyValue 9713 (.ident ⟨9711, s42, none⟩) (.basicLit 9712), .keyValue
  9716 (.ident ⟨9714, s35, none⟩) (.ident ⟨9715, s13, none⟩), .keyValue 9720 (.ident ⟨9717, s37, none⟩) (.compositeLit 9719 [])]], .assign 9729
  [.ident ⟨9723, s33, none⟩] [.compositeLit 9728 [.keyValue 9727 (.ident ⟨9725, s42, none⟩) (.basicLit 9726)]], .assign 9749 [.ident ⟨9730, s33,
  none⟩] [.compositeLit 9748 [.compositeLit 9737 [.keyValue 9736 (.ident ⟨9733, s50, none⟩) (.compositeLit 9735 [])], .compositeLit 9740
  [.compositeLit 9739 []], .compositeLit 9744 [.keyValue 9743 (.ident ⟨9741, s50, none⟩) (.ident ⟨9742, s13, none⟩)], .compositeLit 9746 [.ident
  ⟨9745, s13, none⟩], .compositeLit 9747 []]], .assign 9761 [.ident ⟨9750, s33, none⟩] [.compositeLit 9760 [.keyValue 9759 (.ident ⟨9756, s50,
  none⟩) (.compositeLit 9758 [])]], .assign 9771 [.ident ⟨9762, s33, none⟩] [.compositeLit 9770 [.compositeLit 9769 []]], .assign 9782 [.ident
  ⟨9772, s33, none⟩] [.compositeLit 9781 [.keyValue 9780 (.ident ⟨9778, s50, none⟩) (.ident ⟨9779, s13, none⟩)]], .assign 9791 [.ident ⟨9783, s33,
  none⟩] [.compositeLit 9790 [.ident ⟨9789, s13, none⟩]], .assign 9799 [.ident ⟨9792, s33, none⟩] [.compositeLit 9798 []], .assign 9823 [.ident
  ⟨9800, s33, none⟩] [.compositeLit 9822 [.compositeLit 9811 [.keyValue 9810 (.ident ⟨9807, s50, none⟩) (.compositeLit 9809 [])], .compositeLit 9814
  [.compositeLit 9813 []], .compositeLit 9818 [.keyValue 9817 (.ident ⟨9815, s50, none⟩) (.ident ⟨9816, s13, none⟩)], .compositeLit 9820 [.ident
  ⟨9819, s13, none⟩], .compositeLit 9821 []]], .assign 9854 [.ident ⟨9824, s33, none⟩] [.compositeLit 9853 [.keyValue 9834 (.basicLit 9828)
  (.compositeLit 9833 [.keyValue 9832 (.ident ⟨9829, s50, none⟩) (.compositeLit 9831 [])]), .keyValue 9839 (.basicLit 9835) (.compositeLit 9838
  [.compositeLit 9837 []]), .keyValue 9845 (.basicLit 9840) (.compositeLit 9844 [.keyValue 9843 (.ident ⟨9841, s50, none⟩) (.ident ⟨9842, s13,
  none⟩)]), .keyValue 9849 (.basicLit 9846) (.compositeLit 9848 [.ident ⟨9847, s13, none⟩]), .keyValue 9852 (.basicLit 9850) (.compositeLit 9851
  [])]]], 19104, 24002⟩
/-- invalid.go:248: `func InvalidSliceCreation` -/
def f36 : FuncDef := ⟨10030, some ⟨9866, s71, (some 153)⟩, ⟨[], none, 0⟩, some [.assign 9873 [.ident ⟨9869, s33, none⟩] [.compositeLit 9872 []],
  .assign 9881 [.ident ⟨9874, s33, none⟩] [.compositeLit 9880 [.ident ⟨9877, s13, none⟩, .ident ⟨9878, s13, none⟩, .ident ⟨9879, s13, none⟩]],
  .assign 9890 [.ident ⟨9882, s33, none⟩] [.compositeLit 9889 [.ident ⟨9885, s13, none⟩, .compositeLit 9887 [], .ident ⟨9888, s13, none⟩]], .assign
  9902 [.ident ⟨9891, s33, none⟩] [.compositeLit 9901 [.ident ⟨9894, s13, none⟩, .compositeLit 9896 [], .ident ⟨9897, s13, none⟩, .ident ⟨9898, s13,
  none⟩, .compositeLit 9900 []]], .other 9909 [.other 9908 [.valueSpec 9907 [⟨9903, s72, (some 154)⟩] none [.other 9906 [.basicLit 9904, .basicLit
  9905]]]], .assign 9935 [.ident ⟨9910, s33, none⟩] [.compositeLit 9934 [.keyValue 9915 (.basicLit 9913) (.ident ⟨9914, s13, none⟩), .keyValue 9919
  (.basicLit 9916) (.compositeLit 9918 []), .keyValue 9922 (.basicLit 9920) (.ident ⟨9921, s13, none⟩), .keyValue 9925 (.basicLit 9923) (.ident
  ⟨9924, s13, none⟩), .keyValue 9929 (.basicLit 9926) (.compositeLit 9928 []), .keyValue 9933 (.ident ⟨9930, s72, (some 154)⟩) (.compositeLit 9932
  [])]], .assign 9939 [.ident ⟨9936, s33, none⟩] [.compositeLit 9938 []], .assign 9944 [.ident ⟨9940, s33, none⟩] [.compositeLit 9943 [.ident ⟨9942,
  s13, none⟩]], .assign 9951 [.ident ⟨9945, s33, none⟩] [.compositeLit 9950 [.compositeLit 9948 [], .ident ⟨9949, s13, none⟩]], .assign 9962 [.ident
  ⟨9952, s33, none⟩] [.compositeLit 9961 [.keyValue 9957 (.basicLit 9954) (.compositeLit 9956 []), .keyValue 9960 (.basicLit 9958) (.ident ⟨9959,
  s13, none⟩)]], .assign 9966 [.ident ⟨9963, s33, none⟩] [.compositeLit 9965 []], .assign 9971 [.ident ⟨9967, s33, none⟩] [.compositeLit 9970
  [.ident ⟨9969, s13, none⟩]], .assign 9978 [.ident ⟨9972, s33, none⟩] [.compositeLit 9977 [.compositeLit 9975 [], .ident ⟨9976, s13, none⟩]],
  .assign 9989 [.ident ⟨9979, s33, none⟩] [.compositeLit 9988 [.keyValue 9984 (.basicLit 9981) (.compositeLit 9983 []), .keyValue 9987 (.basicLit
  9985) (.ident ⟨9986, s13, none⟩)]], .assign 10018 [.ident ⟨9990, s33, none⟩] [.compositeLit 10017 [.compositeLit 10002 [.compositeLit 9998 [.ident
  ⟨9995, s13, none⟩, .compositeLit 9997 []], .compositeLit 9999 [], .compositeLit 10001 [.ident ⟨10000, s13, none⟩]], .compositeLit 10016 [.keyValue
  10005 (.basicLit 10003) (.compositeLit 10004 []), .keyValue 10012 (.basicLit 10006) (.compositeLit 10011 [.keyValue 10010 (.basicLit 10007)
  (.compositeLit 10009 [])]), .compositeLit 10015 [.compositeLit 10014 []]]]], .assign 10028 [.ident ⟨10019, s33, none⟩] [.compositeLit 10027
  [.compositeLit 10026 [.ident ⟨10022, s13, none⟩, .ident ⟨10023, s13, none⟩, .compositeLit 10025 []]]]], 24107, 27607⟩
/-- invalid.go:298: `func InvalidArrayCreation` -/
def f37 : FuncDef := ⟨10212, some ⟨10041, s73, (some 157)⟩, ⟨[], none, 0⟩, some [.assign 10049 [.ident ⟨10044, s33, none⟩] [.compositeLit 10048 []],
  .assign 10058 [.ident ⟨10050, s33, none⟩] [.compositeLit 10057 [.ident ⟨10054, s13, none⟩, .ident ⟨10055, s13, none⟩, .ident ⟨10056, s13, none⟩]],
  .assign 10068 [.ident ⟨10059, s33, none⟩] [.compositeLit 10067 [.ident ⟨10063, s13, none⟩, .compositeLit 10065 [], .ident ⟨10066, s13, none⟩]],
  .assign 10081 [.ident ⟨10069, s33, none⟩] [.compositeLit 10080 [.ident ⟨10073, s13, none⟩, .compositeLit 10075 [], .ident ⟨10076, s13, none⟩,
  .ident ⟨10077, s13, none⟩, .compositeLit 10079 []]], .other 10088 [.other 10087 [.valueSpec 10086 [⟨10082, s72, (some 158)⟩] none [.other 10085
  [.basicLit 10083, .basicLit 10084]]]], .assign 10115 [.ident ⟨10089, s33, none⟩] [.compositeLit 10114 [.keyValue 10095 (.basicLit 10093) (.ident
  ⟨10094, s13, none⟩), .keyValue 10099 (.basicLit 10096) (.compositeLit 10098 []), .keyValue 10102 (.basicLit 10100) (.ident ⟨10101, s13, none⟩),
  .keyValue 10105 (.basicLit 10103) (.ident ⟨10104, s13, none⟩), .keyValue 10109 (.basicLit 10106) (.compositeLit 10108 []), .keyValue 10113 (.ident
  ⟨10110, s72, (some 158)⟩) (.compositeLit 10112 [])]], .assign 10119 [.ident ⟨10116, s33, none⟩] [.compositeLit 10118 []], .assign 10124 [.ident
  ⟨10120, s33, none⟩] [.compositeLit 10123 [.ident ⟨10122, s13, none⟩]], .assign 10131 [.ident ⟨10125, s33, none⟩] [.compositeLit 10130
  [.compositeLit 10128 [], .ident ⟨10129, s13, none⟩]], .assign 10142 [.ident ⟨10132, s33, none⟩] [.compositeLit 10141 [.keyValue 10137 (.basicLit
  10134) (.compositeLit 10136 []), .keyValue 10140 (.basicLit 10138) (.ident ⟨10139, s13, none⟩)]], .assign 10146 [.ident ⟨10143, s33, none⟩]
  [.compositeLit 10145 []], .assign 10151 [.ident ⟨10147, s33, none⟩] [.compositeLit 10150 [.ident ⟨10149, s13, none⟩]], .assign 10158 [.ident
  ⟨10152, s33, none⟩] [.compositeLit 10157 [.compositeLit 10155 [], .ident ⟨10156, s13, none⟩]], .assign 10169 [.ident ⟨10159, s33, none⟩]
  [.compositeLit 10168 [.keyValue 10164 (.basicLit 10161) (.compositeLit 10163 []), .keyValue 10167 (.basicLit 10165) (.ident ⟨10166, s13, none⟩)]],
  .assign 10201 [.ident ⟨10170, s33, none⟩] [.compositeLit 10200 [.compositeLit 10185 [.compositeLit 10181 [.ident ⟨10178, s13, none⟩, .compositeLit
  10180 []], .compositeLit 10182 [], .compositeLit 10184 [.ident ⟨10183, s13, none⟩]], .compositeLit 10199 [.keyValue 10188 (.basicLit 10186)
  (.compositeLit 10187 []), .keyValue 10195 (.basicLit 10189) (.compositeLit 10194 [.keyValue 10193 (.basicLit 10190) (.compositeLit 10192 [])]),
  .compositeLit 10198 [.compositeLit 10197 []]]]], .assign 10210 [.ident ⟨10202, s33, none⟩] [.compositeLit 10209 [.compositeLit 10208 [.ident
  ⟨10205, s13, none⟩, .compositeLit 10207 []]]]], 27713, 31224⟩
/-- invalid.go:348: `func InvalidMapCreation` -/
def f38 : FuncDef := ⟨10464, some ⟨10223, s74, (some 161)⟩, ⟨[], none, 0⟩, some [.assign 10231 [.ident ⟨10226, s33, none⟩] [.compositeLit 10230 []],
  .assign 10243 [.ident ⟨10232, s33, none⟩] [.compositeLit 10242 [.keyValue 10238 (.basicLit 10236) (.ident ⟨10237, s13, none⟩), .keyValue 10241
  (.basicLit 10239) (.ident ⟨10240, s13, none⟩)]], .assign 10259 [.ident ⟨10244, s33, none⟩] [.compositeLit 10258 [.keyValue 10250 (.basicLit 10248)
  (.ident ⟨10249, s13, none⟩), .keyValue 10254 (.basicLit 10251) (.compositeLit 10253 []), .keyValue 10257 (.basicLit 10255) (.ident ⟨10256, s13,
  none⟩)]], .other 10266 [.other 10265 [.valueSpec 10264 [⟨10260, s72, (some 162)⟩] none [.other 10263 [.basicLit 10261, .basicLit 10262]]]],
  .assign 10293 [.ident ⟨10267, s33, none⟩] [.compositeLit 10292 [.keyValue 10273 (.basicLit 10271) (.ident ⟨10272, s13, none⟩), .keyValue 10277
  (.basicLit 10274) (.compositeLit 10276 []), .keyValue 10280 (.basicLit 10278) (.ident ⟨10279, s13, none⟩), .keyValue 10283 (.basicLit 10281)
  (.ident ⟨10282, s13, none⟩), .keyValue 10287 (.basicLit 10284) (.compositeLit 10286 []), .keyValue 10291 (.ident ⟨10288, s72, (some 162)⟩)
  (.compositeLit 10290 [])]], .assign 10297 [.ident ⟨10294, s33, none⟩] [.compositeLit 10296 []], .assign 10304 [.ident ⟨10298, s33, none⟩]
  [.compositeLit 10303 [.keyValue 10302 (.basicLit 10300) (.ident ⟨10301, s13, none⟩)]], .assign 10315 [.ident ⟨10305, s33, none⟩] [.compositeLit
  10314 [.keyValue 10310 (.basicLit 10307) (.compositeLit 10309 []), .keyValue 10313 (.basicLit 10311) (.ident ⟨10312, s13, none⟩)]], .assign 10319
  [.ident ⟨10316, s33, none⟩] [.compositeLit 10318 []], .assign 10326 [.ident ⟨10320, s33, none⟩] [.compositeLit 10325 [.keyValue 10324 (.basicLit
  10322) (.ident ⟨10323, s13, none⟩)]], .assign 10337 [.ident ⟨10327, s33, none⟩] [.compositeLit 10336 [.keyValue 10332 (.basicLit 10329)
  (.compositeLit 10331 []), .keyValue 10335 (.basicLit 10333) (.ident ⟨10334, s13, none⟩)]], .assign 10382 [.ident ⟨10338, s33, none⟩]
  [.compositeLit 10381 [.keyValue 10367 (.basicLit 10346) (.compositeLit 10366 [.keyValue 10356 (.basicLit 10347) (.compositeLit 10355 [.keyValue
  10350 (.basicLit 10348) (.ident ⟨10349, s13, none⟩), .keyValue 10354 (.basicLit 10351) (.compositeLit 10353 [])]), .keyValue 10359 (.basicLit
  10357) (.compositeLit 10358 []), .keyValue 10365 (.basicLit 10360) (.compositeLit 10364 [.keyValue 10363 (.basicLit 10361) (.ident ⟨10362, s13,
  none⟩)])]), .keyValue 10380 (.basicLit 10368) (.compositeLit 10379 [.keyValue 10371 (.basicLit 10369) (.compositeLit 10370 []), .keyValue 10378
  (.basicLit 10372) (.compositeLit 10377 [.keyValue 10376 (.basicLit 10373) (.compositeLit 10375 [])])])]], .assign 10398 [.ident ⟨10383, s33,
  none⟩] [.compositeLit 10397 [.keyValue 10396 (.basicLit 10387) (.compositeLit 10395 [.keyValue 10390 (.basicLit 10388) (.ident ⟨10389, s13,
  none⟩), .keyValue 10394 (.basicLit 10391) (.compositeLit 10393 [])])]], .assign 10404 [.ident ⟨10399, s33, none⟩] [.compositeLit 10403 []],
  .assign 10414 [.ident ⟨10405, s33, none⟩] [.compositeLit 10413 [.keyValue 10412 (.compositeLit 10410 []) (.basicLit 10411)]], .assign 10430
  [.ident ⟨10415, s33, none⟩] [.compositeLit 10429 [.keyValue 10421 (.ident ⟨10419, s13, none⟩) (.basicLit 10420), .keyValue 10425 (.compositeLit
  10423 []) (.basicLit 10424), .keyValue 10428 (.ident ⟨10426, s13, none⟩) (.basicLit 10427)]], .assign 10449 [.ident ⟨10431, s33, none⟩]
  [.compositeLit 10448 [.keyValue 10438 (.ident ⟨10435, s13, none⟩) (.compositeLit 10437 []), .keyValue 10442 (.compositeLit 10440 []) (.ident
  ⟨10441, s13, none⟩), .keyValue 10447 (.compositeLit 10444 []) (.compositeLit 10446 [])]], .assign 10462 [.ident ⟨10450, s33, none⟩] [.compositeLit
  10461 [.keyValue 10460 (.basicLit 10455) (.compositeLit 10459 [.compositeLit 10457 [], .ident ⟨10458, s13, none⟩])]]], 31329, 35505⟩
/-- invalid.go:408: `func InvalidForRange` -/
def f39 : FuncDef := ⟨10627, some ⟨10465, s75, (some 163)⟩, ⟨[⟨[⟨10466, s58, (some 164)⟩], 10468⟩, ⟨[⟨10469, s79, (some 165)⟩], 10473⟩, ⟨[⟨10474,
  s62, (some 166)⟩], 10477⟩, ⟨[⟨10478, s81, (some 167)⟩], 10481⟩, ⟨[⟨10482, s77, (some 168)⟩], 10485⟩, ⟨[⟨10486, s78, (some 169)⟩], 10490⟩,
  ⟨[⟨10491, s82, (some 170)⟩], 10493⟩], none, 0⟩, some [.other 10507 [.other 10506 [.valueSpec 10505 [⟨10503, s50, (some 171)⟩] (some 10504) []]],
  .range 10516 (some (.ident ⟨10508, s33, none⟩)) (some (.ident ⟨10509, s50, (some 171)⟩)) (.ident ⟨10510, s58, (some 164)⟩) [.assign 10514 [.ident
  ⟨10512, s33, none⟩] [.ident ⟨10513, s50, (some 171)⟩]], .range 10524 (some (.ident ⟨10517, s76, (some 172)⟩)) none (.ident ⟨10518, s58, (some
  164)⟩) [.assign 10522 [.ident ⟨10520, s33, none⟩] [.ident ⟨10521, s76, (some 172)⟩]], .range 10533 (some (.ident ⟨10525, s33, none⟩)) (some
  (.ident ⟨10526, s50, (some 171)⟩)) (.ident ⟨10527, s77, (some 168)⟩) [.assign 10531 [.ident ⟨10529, s33, none⟩] [.ident ⟨10530, s50, (some
  171)⟩]], .range 10541 (some (.ident ⟨10534, s76, (some 173)⟩)) none (.ident ⟨10535, s77, (some 168)⟩) [.assign 10539 [.ident ⟨10537, s33, none⟩]
  [.ident ⟨10538, s76, (some 173)⟩]], .range 10550 (some (.ident ⟨10542, s33, none⟩)) (some (.ident ⟨10543, s50, (some 171)⟩)) (.ident ⟨10544, s78,
  (some 169)⟩) [.assign 10548 [.ident ⟨10546, s33, none⟩] [.ident ⟨10547, s50, (some 171)⟩]], .range 10558 (some (.ident ⟨10551, s76, (some 174)⟩))
  none (.ident ⟨10552, s78, (some 169)⟩) [.assign 10556 [.ident ⟨10554, s33, none⟩] [.ident ⟨10555, s76, (some 174)⟩]], .range 10567 (some (.ident
  ⟨10559, s50, (some 171)⟩)) (some (.ident ⟨10560, s33, none⟩)) (.ident ⟨10561, s79, (some 165)⟩) [.assign 10565 [.ident ⟨10563, s33, none⟩] [.ident
  ⟨10564, s50, (some 171)⟩]], .range 10575 (some (.ident ⟨10568, s50, (some 171)⟩)) none (.ident ⟨10569, s79, (some 165)⟩) [.assign 10573 [.ident
  ⟨10571, s33, none⟩] [.ident ⟨10572, s50, (some 171)⟩]], .range 10584 (some (.ident ⟨10576, s33, none⟩)) (some (.ident ⟨10577, s50, (some 171)⟩))
  (.ident ⟨10578, s62, (some 166)⟩) [.assign 10582 [.ident ⟨10580, s33, none⟩] [.ident ⟨10581, s50, (some 171)⟩]], .other 10589 [.other 10588
  [.valueSpec 10587 [⟨10585, s80, (some 175)⟩] (some 10586) []]], .range 10600 (some (.ident ⟨10590, s50, (some 171)⟩)) (some (.ident ⟨10591, s80,
  (some 175)⟩)) (.ident ⟨10592, s81, (some 167)⟩) [.assign 10598 [.ident ⟨10594, s33, none⟩, .ident ⟨10595, s33, none⟩] [.ident ⟨10596, s50, (some
  171)⟩, .ident ⟨10597, s80, (some 175)⟩]], .range 10609 (some (.ident ⟨10601, s50, (some 171)⟩)) (some (.ident ⟨10602, s50, (some 171)⟩)) (.ident
  ⟨10603, s81, (some 167)⟩) [.assign 10607 [.ident ⟨10605, s33, none⟩] [.ident ⟨10606, s50, (some 171)⟩]], .range 10617 (some (.ident ⟨10610, s50,
  (some 171)⟩)) none (.ident ⟨10611, s81, (some 167)⟩) [.assign 10615 [.ident ⟨10613, s33, none⟩] [.ident ⟨10614, s50, (some 171)⟩]], .range 10625
  (some (.ident ⟨10618, s50, (some 171)⟩)) none (.ident ⟨10619, s82, (some 170)⟩) [.assign 10623 [.ident ⟨10621, s33, none⟩] [.ident ⟨10622, s50,
  (some 171)⟩]]], 35757, 38474⟩
/-- invalid.go:488: `func InvalidForRangeNamed` -/
def f40 : FuncDef := ⟨10833, some ⟨10664, s83, (some 183)⟩, ⟨[⟨[⟨10665, s58, (some 184)⟩], 10666⟩, ⟨[⟨10667, s79, (some 185)⟩], 10668⟩, ⟨[⟨10669,
  s62, (some 186)⟩], 10670⟩, ⟨[⟨10671, s81, (some 187)⟩], 10672⟩, ⟨[⟨10673, s77, (some 188)⟩], 10674⟩, ⟨[⟨10675, s78, (some 189)⟩], 10676⟩,
  ⟨[⟨10677, s84, (some 190)⟩], 10679⟩, ⟨[⟨10680, s82, (some 191)⟩], 10681⟩], none, 0⟩, some [.other 10696 [.other 10695 [.valueSpec 10694 [⟨10692,
  s50, (some 192)⟩] (some 10693) []]], .range 10705 (some (.ident ⟨10697, s33, none⟩)) (some (.ident ⟨10698, s50, (some 192)⟩)) (.ident ⟨10699, s58,
  (some 184)⟩) [.assign 10703 [.ident ⟨10701, s33, none⟩] [.ident ⟨10702, s50, (some 192)⟩]], .range 10713 (some (.ident ⟨10706, s76, (some 193)⟩))
  none (.ident ⟨10707, s58, (some 184)⟩) [.assign 10711 [.ident ⟨10709, s33, none⟩] [.ident ⟨10710, s76, (some 193)⟩]], .range 10722 (some (.ident
  ⟨10714, s33, none⟩)) (some (.ident ⟨10715, s50, (some 192)⟩)) (.ident ⟨10716, s77, (some 188)⟩) [.assign 10720 [.ident ⟨10718, s33, none⟩] [.ident
  ⟨10719, s50, (some 192)⟩]], .range 10730 (some (.ident ⟨10723, s76, (some 194)⟩)) none (.ident ⟨10724, s77, (some 188)⟩) [.assign 10728 [.ident
  ⟨10726, s33, none⟩] [.ident ⟨10727, s76, (some 194)⟩]], .range 10739 (some (.ident ⟨10731, s33, none⟩)) (some (.ident ⟨10732, s50, (some 192)⟩))
  (.ident ⟨10733, s78, (some 189)⟩) [.assign 10737 [.ident ⟨10735, s33, none⟩] [.ident ⟨10736, s50, (some 192)⟩]], .range 10747 (some (.ident
  ⟨10740, s76, (some 195)⟩)) none (.ident ⟨10741, s78, (some 189)⟩) [.assign 10745 [.ident ⟨10743, s33, none⟩] [.ident ⟨10744, s76, (some 195)⟩]],
  .range 10756 (some (.ident ⟨10748, s33, none⟩)) (some (.ident ⟨10749, s50, (some 192)⟩)) (.ident ⟨10750, s84, (some 190)⟩) [.assign 10754 [.ident
  ⟨10752, s33, none⟩] [.ident ⟨10753, s50, (some 192)⟩]], .range 10764 (some (.ident ⟨10757, s76, (some 196)⟩)) none (.ident ⟨10758, s84, (some
  190)⟩) [.assign 10762 [.ident ⟨10760, s33, none⟩] [.ident ⟨10761, s76, (some 196)⟩]], .range 10773 (some (.ident ⟨10765, s50, (some 192)⟩)) (some
  (.ident ⟨10766, s33, none⟩)) (.ident ⟨10767, s79, (some 185)⟩) [.assign 10771 [.ident ⟨10769, s33, none⟩] [.ident ⟨10770, s50, (some 192)⟩]],
  .range 10781 (some (.ident ⟨10774, s50, (some 192)⟩)) none (.ident ⟨10775, s79, (some 185)⟩) [.assign 10779 [.ident ⟨10777, s33, none⟩] [.ident
  ⟨10778, s50, (some 192)⟩]], .range 10790 (some (.ident ⟨10782, s33, none⟩)) (some (.ident ⟨10783, s50, (some 192)⟩)) (.ident ⟨10784, s62, (some
  186)⟩) [.assign 10788 [.ident ⟨10786, s33, none⟩] [.ident ⟨10787, s50, (some 192)⟩]], .other 10795 [.other 10794 [.valueSpec 10793 [⟨10791, s80,
  (some 197)⟩] (some 10792) []]], .range 10806 (some (.ident ⟨10796, s50, (some 192)⟩)) (some (.ident ⟨10797, s80, (some 197)⟩)) (.ident ⟨10798,
  s81, (some 187)⟩) [.assign 10804 [.ident ⟨10800, s33, none⟩, .ident ⟨10801, s33, none⟩] [.ident ⟨10802, s50, (some 192)⟩, .ident ⟨10803, s80,
  (some 197)⟩]], .range 10815 (some (.ident ⟨10807, s50, (some 192)⟩)) (some (.ident ⟨10808, s50, (some 192)⟩)) (.ident ⟨10809, s81, (some 187)⟩)
  [.assign 10813 [.ident ⟨10811, s33, none⟩] [.ident ⟨10812, s50, (some 192)⟩]], .range 10823 (some (.ident ⟨10816, s50, (some 192)⟩)) none (.ident
  ⟨10817, s81, (some 187)⟩) [.assign 10821 [.ident ⟨10819, s33, none⟩] [.ident ⟨10820, s50, (some 192)⟩]], .range 10831 (some (.ident ⟨10824, s50,
  (some 192)⟩)) none (.ident ⟨10825, s82, (some 191)⟩) [.assign 10829 [.ident ⟨10827, s33, none⟩] [.ident ⟨10828, s50, (some 192)⟩]]], 39168, 42138⟩
/-- invalid.go:569: `func InvalidChannelOperation` -/
def f41 : FuncDef := ⟨10965, some ⟨10839, s85, (some 199)⟩, ⟨[⟨[⟨10840, s82, (some 200)⟩], 10842⟩, ⟨[⟨10843, s86, (some 201)⟩], 10845⟩, ⟨[⟨10846,
  s87, (some 202)⟩], 10847⟩], none, 0⟩, some [.other 10859 [.other 10858 [.valueSpec 10857 [⟨10853, s50, (some 203)⟩] (some 10854) [.unary 10856
  false (.ident ⟨10855, s82, (some 200)⟩)]]], .other 10865 [.other 10864 [.valueSpec 10863 [⟨10860, s2, (some 204)⟩] none [.unary 10862 false
  (.ident ⟨10861, s82, (some 200)⟩)]]], .send 10869 (.ident ⟨10866, s82, (some 200)⟩) (.compositeLit 10868 []), .send 10872 (.ident ⟨10870, s82,
  (some 200)⟩) (.ident ⟨10871, s2, (some 204)⟩), .send 10876 (.ident ⟨10873, s86, (some 201)⟩) (.compositeLit 10875 []), .send 10880 (.ident ⟨10877,
  s86, (some 201)⟩) (.unary 10879 false (.ident ⟨10878, s82, (some 200)⟩)), .send 10883 (.ident ⟨10881, s86, (some 201)⟩) (.ident ⟨10882, s50, (some
  203)⟩), .send 10887 (.ident ⟨10884, s87, (some 202)⟩) (.compositeLit 10886 []), .send 10891 (.ident ⟨10888, s87, (some 202)⟩) (.unary 10890 false
  (.ident ⟨10889, s82, (some 200)⟩)), .other 10963 [.other 10962 [.other 10899 [.assign 10895 [.ident ⟨10892, s50, (some 203)⟩] [.unary 10894 false
  (.ident ⟨10893, s82, (some 200)⟩)], .assign 10898 [.ident ⟨10896, s33, none⟩] [.ident ⟨10897, s50, (some 203)⟩]], .other 10907 [.assign 10903
  [.ident ⟨10900, s2, (some 204)⟩] [.unary 10902 false (.ident ⟨10901, s82, (some 200)⟩)], .assign 10906 [.ident ⟨10904, s33, none⟩] [.ident ⟨10905,
  s50, (some 203)⟩]], .other 10915 [.send 10911 (.ident ⟨10908, s82, (some 200)⟩) (.compositeLit 10910 []), .assign 10914 [.ident ⟨10912, s33,
  none⟩] [.ident ⟨10913, s50, (some 203)⟩]], .other 10922 [.send 10918 (.ident ⟨10916, s82, (some 200)⟩) (.ident ⟨10917, s2, (some 204)⟩), .assign
  10921 [.ident ⟨10919, s33, none⟩] [.ident ⟨10920, s50, (some 203)⟩]], .other 10930 [.send 10926 (.ident ⟨10923, s86, (some 201)⟩) (.compositeLit
  10925 []), .assign 10929 [.ident ⟨10927, s33, none⟩] [.ident ⟨10928, s50, (some 203)⟩]], .other 10938 [.send 10934 (.ident ⟨10931, s86, (some
  201)⟩) (.unary 10933 false (.ident ⟨10932, s82, (some 200)⟩)), .assign 10937 [.ident ⟨10935, s33, none⟩] [.ident ⟨10936, s50, (some 203)⟩]],
  .other 10946 [.send 10942 (.ident ⟨10939, s87, (some 202)⟩) (.compositeLit 10941 []), .assign 10945 [.ident ⟨10943, s33, none⟩] [.ident ⟨10944,
  s50, (some 203)⟩]], .other 10954 [.send 10950 (.ident ⟨10947, s87, (some 202)⟩) (.unary 10949 false (.ident ⟨10948, s82, (some 200)⟩)), .assign
  10953 [.ident ⟨10951, s33, none⟩] [.ident ⟨10952, s50, (some 203)⟩]], .other 10961 [.send 10957 (.ident ⟨10955, s86, (some 201)⟩) (.ident ⟨10956,
  s50, (some 203)⟩), .assign 10960 [.ident ⟨10958, s33, none⟩] [.ident ⟨10959, s50, (some 203)⟩]]]]], 42294, 44786⟩
/-- invalid.go:623: `func local1` -/
def f42 : FuncDef := ⟨11011, some ⟨10999, s88, none⟩, ⟨[], (some [⟨[], 11001⟩]), 45359⟩, some [.ret 11009 [.unary 11008 true (.compositeLit 11007
  [.basicLit 11006])]], 45365, 45400⟩
/-- invalid.go:627: `func local2` -/
def f43 : FuncDef := ⟨11043, some ⟨11015, s89, none⟩, ⟨[], (some [⟨[], 11017⟩]), 45448⟩, some [.other 11036 [.other 11035 [.caseClause 11027 [.ident
  ⟨11021, s53, none⟩] [.ret 11026 [.unary 11025 true (.compositeLit 11024 [.basicLit 11023])]], .caseClause 11034 [.ident ⟨11028, s53, none⟩] [.ret
  11033 [.unary 11032 true (.compositeLit 11031 [.basicLit 11030])]]]], .ret 11041 [.unary 11040 true (.compositeLit 11039 [.basicLit 11038])]],
  45454, 45608⟩
/-- invalid.go:637: `func local3` -/
def f44 : FuncDef := ⟨11059, some ⟨11047, s90, none⟩, ⟨[], (some [⟨[], 11049⟩]), 45656⟩, some [.ret 11057 [.unary 11056 true (.compositeLit 11055
  [.basicLit 11054])]], 45662, 45697⟩
/-- invalid.go:641: `func InvalidLocalImplementation` -/
def f45 : FuncDef := ⟨11074, some ⟨11060, s91, (some 210)⟩, ⟨[], none, 0⟩, some [.other 11069 [.other 11068 [.valueSpec 11067 [⟨11063, s92, (some
  211)⟩] (some 11064) [.compositeLit 11066 []]]], .assign 11072 [.ident ⟨11070, s33, none⟩] [.ident ⟨11071, s92, (some 211)⟩]], 45733, 46164⟩
/-- invalid.go:673: `func I1` -/
def f46 : FuncDef := ⟨11142, some ⟨11130, s93, none⟩, ⟨[], (some [⟨[], 11132⟩]), 46743⟩, some [.ret 11140 [.unary 11139 true (.compositeLit 11138
  [.basicLit 11137])]], 46749, 46823⟩
/-- invalid.go:680: `func I2` -/
def f47 : FuncDef := ⟨11158, some ⟨11146, s94, none⟩, ⟨[], (some [⟨[], 11148⟩]), 46898⟩, some [.ret 11156 [.unary 11155 true (.compositeLit 11154
  [.basicLit 11153])]], 46904, 46978⟩
/-- invalid.go:689: `func I3` -/
def f48 : FuncDef := ⟨11191, some ⟨11162, s95, none⟩, ⟨[], (some [⟨[], 11164⟩]), 47109⟩, some [.other 11189 [.other 11188 [.caseClause 11174 [.ident
  ⟨11168, s53, none⟩] [.ret 11173 [.unary 11172 true (.compositeLit 11171 [.basicLit 11170])]], .caseClause 11181 [.ident ⟨11175, s53, none⟩] [.ret
  11180 [.unary 11179 true (.compositeLit 11178 [.basicLit 11177])]], .caseClause 11187 [] [.ret 11186 [.unary 11185 true (.compositeLit 11184
  [.basicLit 11183])]]]]], 47115, 47343⟩
/-- invalid.go:700: `func GetInterface2InvalidImpl` -/
def f49 : FuncDef := ⟨11209, some ⟨11192, s96, (some 223)⟩, ⟨[⟨[⟨11193, s33, (some 224)⟩, ⟨11194, s33, (some 225)⟩], 11195⟩, ⟨[⟨11196, s33, (some
  226)⟩], 11197⟩], (some [⟨[], 11201⟩]), 47399⟩, some [.ret 11207 [.compositeLit 11206 []]], 47421, 47456⟩
/-- invalid.go:704: `func NestedInvalidConversions` -/
def f50 : FuncDef := ⟨11233, some ⟨11210, s97, (some 227)⟩, ⟨[⟨[⟨11211, s99, (some 228)⟩], 11212⟩], none, 0⟩, some [.other 11228 [.other 11227
  [.valueSpec 11226 [⟨11216, s98, (some 229)⟩] (some 11217) [.compositeLit 11225 [.basicLit 11219, .call 11224 (.ident ⟨11220, s96, (some 223)⟩)
  [.basicLit 11221, .basicLit 11222, .ident ⟨11223, s99, (some 228)⟩]]]]], .assign 11231 [.ident ⟨11229, s33, none⟩] [.ident ⟨11230, s98, (some
  229)⟩]], 47514, 48122⟩
/-- invalid.go:713: `func InvalidEmbeddedInterface` -/
def f51 : FuncDef := ⟨11244, some ⟨11234, s100, (some 230)⟩, ⟨[], (some [⟨[], 11236⟩]), 48156⟩, some [.ret 11242 [.compositeLit 11241 []]], 48180,
  48400⟩
/-- The objects of go/ast, in the order of their numbers. -/
def objects : List ObjInfo := [
  ⟨.typ, 79, .typeSpec⟩,
  ⟨.fun_, 403, .other⟩,
  ⟨.typ, 521, .typeSpec⟩,
  ⟨.fun_, 818, .other⟩,
  ⟨.fun_, 1026, .other⟩,
  ⟨.var, 1043, .other⟩,
  ⟨.var, 1046, .other⟩,
  ⟨.fun_, 1269, .other⟩,
  ⟨.var, 1288, .other⟩,
  ⟨.var, 1291, .other⟩,
  ⟨.typ, 1316, .typeSpec⟩,
  ⟨.fun_, 1348, .other⟩,
  ⟨.typ, 1448, .typeSpec⟩,
  ⟨.typ, 1579, .typeSpec⟩,
  ⟨.typ, 2851, .typeSpec⟩,
  ⟨.typ, 3202, .typeSpec⟩,
  ⟨.typ, 1960, .typeSpec⟩,
  ⟨.typ, 2110, .typeSpec⟩,
  ⟨.typ, 2477, .typeSpec⟩,
  ⟨.fun_, 3087, .other⟩,
  ⟨.fun_, 3345, .other⟩,
  ⟨.typ, 3422, .typeSpec⟩,
  ⟨.fun_, 3883, .other⟩,
  ⟨.fun_, 4134, (.funcDecl 0)⟩,
  ⟨.var, 4149, .other⟩,
  ⟨.var, 4169, .other⟩,
  ⟨.var, 4172, .other⟩,
  ⟨.fun_, 4521, (.funcDecl 1)⟩,
  ⟨.var, 4535, .other⟩,
  ⟨.var, 4538, .other⟩,
  ⟨.typ, 4801, .typeSpec⟩,
  ⟨.typ, 4837, .typeSpec⟩,
  ⟨.typ, 4873, .typeSpec⟩,
  ⟨.typ, 7140, .typeSpec⟩,
  ⟨.var, 5194, .other⟩,
  ⟨.var, 5197, .other⟩,
  ⟨.var, 5381, .other⟩,
  ⟨.var, 5384, .other⟩,
  ⟨.fun_, 6241, (.funcDecl 8)⟩,
  ⟨.var, 6278, .other⟩,
  ⟨.var, 6281, .other⟩,
  ⟨.typ, 6517, .typeSpec⟩,
  ⟨.fun_, 6539, .other⟩,
  ⟨.fun_, 6554, .other⟩,
  ⟨.fun_, 6572, .other⟩,
  ⟨.fun_, 6601, .other⟩,
  ⟨.fun_, 6616, .other⟩,
  ⟨.fun_, 6674, (.funcDecl 9)⟩,
  ⟨.fun_, 6857, (.funcDecl 10)⟩,
  ⟨.var, 6879, .other⟩,
  ⟨.fun_, 7044, (.funcDecl 11)⟩,
  ⟨.var, 7069, .other⟩,
  ⟨.var, 7226, .other⟩,
  ⟨.var, 7250, .other⟩,
  ⟨.var, 7315, .other⟩,
  ⟨.var, 7380, .other⟩,
  ⟨.var, 7439, .other⟩,
  ⟨.var, 7498, .other⟩,
  ⟨.typ, 7649, .typeSpec⟩,
  ⟨.typ, 8032, .typeSpec⟩,
  ⟨.typ, 8181, .typeSpec⟩,
  ⟨.fun_, 8660, .other⟩,
  ⟨.typ, 8810, .typeSpec⟩,
  ⟨.typ, 8843, .typeSpec⟩,
  ⟨.fun_, 8894, .other⟩,
  ⟨.fun_, 9013, .other⟩,
  ⟨.fun_, 9582, (.funcDecl 18)⟩,
  ⟨.fun_, 9833, (.funcDecl 19)⟩,
  ⟨.fun_, 10104, (.funcDecl 20)⟩,
  ⟨.var, 10122, .other⟩,
  ⟨.var, 10125, .other⟩,
  ⟨.var, 10132, .other⟩,
  ⟨.var, 10135, .other⟩,
  ⟨.fun_, 10385, (.funcDecl 21)⟩,
  ⟨.var, 10429, (.valueSpec [⟨9044, s35, (some 74)⟩] [])⟩,
  ⟨.fun_, 10672, (.funcDecl 22)⟩,
  ⟨.var, 10700, (.valueSpec [⟨9061, s35, (some 76)⟩, ⟨9062, s37, (some 77)⟩] [])⟩,
  ⟨.var, 10703, (.valueSpec [⟨9061, s35, (some 76)⟩, ⟨9062, s37, (some 77)⟩] [])⟩,
  ⟨.var, 10714, (.valueSpec [⟨9067, s38, (some 78)⟩] [])⟩,
  ⟨.fun_, 10977, (.funcDecl 23)⟩,
  ⟨.var, 10999, .other⟩,
  ⟨.var, 11006, .other⟩,
  ⟨.var, 11009, .other⟩,
  ⟨.fun_, 11268, (.funcDecl 24)⟩,
  ⟨.fun_, 11395, (.funcDecl 25)⟩,
  ⟨.var, 11423, (.valueSpec [⟨9131, s37, (some 85)⟩] [])⟩,
  ⟨.var, 11442, .other⟩,
  ⟨.var, 11679, (.valueSpec [⟨9146, s42, (some 87)⟩, ⟨9147, s43, (some 88)⟩] [])⟩,
  ⟨.var, 11682, (.valueSpec [⟨9146, s42, (some 87)⟩, ⟨9147, s43, (some 88)⟩] [])⟩,
  ⟨.fun_, 12123, (.funcDecl 26)⟩,
  ⟨.var, 12151, (.valueSpec [⟨9167, s45, (some 90)⟩] [.compositeLit 9170 []])⟩,
  ⟨.var, 12395, (.valueSpec [⟨9174, s46, (some 91)⟩, ⟨9175, s47, (some 92)⟩, ⟨9176, s33, (some 93)⟩] [.ident ⟨9178, s13, none⟩, .compositeLit 9180
  [], .ident ⟨9181, s13, none⟩])⟩,
  ⟨.var, 12399, (.valueSpec [⟨9174, s46, (some 91)⟩, ⟨9175, s47, (some 92)⟩, ⟨9176, s33, (some 93)⟩] [.ident ⟨9178, s13, none⟩, .compositeLit 9180
  [], .ident ⟨9181, s13, none⟩])⟩,
  ⟨.var, 12403, (.valueSpec [⟨9174, s46, (some 91)⟩, ⟨9175, s47, (some 92)⟩, ⟨9176, s33, (some 93)⟩] [.ident ⟨9178, s13, none⟩, .compositeLit 9180
  [], .ident ⟨9181, s13, none⟩])⟩,
  ⟨.var, 12639, (.valueSpec [⟨9185, s48, (some 94)⟩, ⟨9186, s33, (some 95)⟩] [.call 9189 (.ident ⟨9188, s40, (some 83)⟩) []])⟩,
  ⟨.var, 12643, (.valueSpec [⟨9185, s48, (some 94)⟩, ⟨9186, s33, (some 95)⟩] [.call 9189 (.ident ⟨9188, s40, (some 83)⟩) []])⟩,
  ⟨.fun_, 13099, (.funcDecl 27)⟩,
  ⟨.var, 13118, .other⟩,
  ⟨.var, 13154, (.valueSpec [⟨9212, s50, (some 98)⟩] [])⟩,
  ⟨.var, 13178, (.valueSpec [⟨9217, s51, (some 99)⟩] [])⟩,
  ⟨.fun_, 14075, (.funcDecl 28)⟩,
  ⟨.var, 14097, .other⟩,
  ⟨.var, 14100, .other⟩,
  ⟨.var, 14107, .other⟩,
  ⟨.fun_, 14135, (.funcDecl 29)⟩,
  ⟨.var, 14165, .other⟩,
  ⟨.var, 14172, .other⟩,
  ⟨.fun_, 14203, (.funcDecl 30)⟩,
  ⟨.var, 14230, .other⟩,
  ⟨.var, 14237, .other⟩,
  ⟨.fun_, 14267, (.funcDecl 31)⟩,
  ⟨.var, 14292, .other⟩,
  ⟨.var, 15260, (.valueSpec [⟨9367, s58, (some 112)⟩] [])⟩,
  ⟨.var, 15761, .other⟩,
  ⟨.var, 15776, .other⟩,
  ⟨.typ, 16016, .typeSpec⟩,
  ⟨.fun_, 16070, (.funcDecl 33)⟩,
  ⟨.var, 16088, .other⟩,
  ⟨.var, 16121, .other⟩,
  ⟨.var, 16145, .other⟩,
  ⟨.typ, 16698, .typeSpec⟩,
  ⟨.fun_, 17115, .other⟩,
  ⟨.typ, 17257, .typeSpec⟩,
  ⟨.fun_, 17286, .other⟩,
  ⟨.fun_, 17309, (.funcDecl 34)⟩,
  ⟨.var, 17327, .other⟩,
  ⟨.var, 17369, .other⟩,
  ⟨.var, 18141, .other⟩,
  ⟨.var, 18144, .other⟩,
  ⟨.var, 18493, (.valueSpec [⟨9532, s50, (some 129)⟩] [])⟩,
  ⟨.var, 18520, .other⟩,
  ⟨.typ, 18864, .typeSpec⟩,
  ⟨.var, 18893, .other⟩,
  ⟨.typ, 18920, .typeSpec⟩,
  ⟨.var, 18950, .other⟩,
  ⟨.var, 18953, .other⟩,
  ⟨.var, 18960, .other⟩,
  ⟨.var, 18982, .other⟩,
  ⟨.var, 18985, .other⟩,
  ⟨.typ, 19011, .typeSpec⟩,
  ⟨.var, 19041, .other⟩,
  ⟨.var, 19044, .other⟩,
  ⟨.var, 19051, .other⟩,
  ⟨.var, 19054, .other⟩,
  ⟨.fun_, 19080, (.funcDecl 35)⟩,
  ⟨.var, 22414, .other⟩,
  ⟨.var, 22654, .other⟩,
  ⟨.var, 22894, .other⟩,
  ⟨.var, 22937, .other⟩,
  ⟨.var, 22976, .other⟩,
  ⟨.var, 23015, .other⟩,
  ⟨.typ, 24009, .typeSpec⟩,
  ⟨.typ, 24047, .typeSpec⟩,
  ⟨.fun_, 24084, (.funcDecl 36)⟩,
  ⟨.con, 24871, (.valueSpec [⟨9903, s72, (some 154)⟩] [.other 9906 [.basicLit 9904, .basicLit 9905]])⟩,
  ⟨.typ, 27614, .typeSpec⟩,
  ⟨.typ, 27653, .typeSpec⟩,
  ⟨.fun_, 27690, (.funcDecl 37)⟩,
  ⟨.con, 28483, (.valueSpec [⟨10082, s72, (some 158)⟩] [.other 10085 [.basicLit 10083, .basicLit 10084]])⟩,
  ⟨.typ, 31231, .typeSpec⟩,
  ⟨.typ, 31273, .typeSpec⟩,
  ⟨.fun_, 31308, (.funcDecl 38)⟩,
  ⟨.con, 31684, (.valueSpec [⟨10260, s72, (some 162)⟩] [.other 10263 [.basicLit 10261, .basicLit 10262]])⟩,
  ⟨.fun_, 35512, (.funcDecl 39)⟩,
  ⟨.var, 35530, .other⟩,
  ⟨.var, 35558, .other⟩,
  ⟨.var, 35594, .other⟩,
  ⟨.var, 35628, .other⟩,
  ⟨.var, 35673, .other⟩,
  ⟨.var, 35702, .other⟩,
  ⟨.var, 35729, .other⟩,
  ⟨.var, 35764, (.valueSpec [⟨10503, s50, (some 171)⟩] [])⟩,
  ⟨.var, 36009, .other⟩,
  ⟨.var, 36266, .other⟩,
  ⟨.var, 36520, .other⟩,
  ⟨.var, 37204, (.valueSpec [⟨10585, s80, (some 175)⟩] [])⟩,
  ⟨.typ, 38484, .typeSpec⟩,
  ⟨.typ, 38537, .typeSpec⟩,
  ⟨.typ, 38601, .typeSpec⟩,
  ⟨.typ, 38663, .typeSpec⟩,
  ⟨.typ, 38736, .typeSpec⟩,
  ⟨.typ, 38790, .typeSpec⟩,
  ⟨.typ, 38845, .typeSpec⟩,
  ⟨.fun_, 38908, (.funcDecl 40)⟩,
  ⟨.var, 38931, .other⟩,
  ⟨.var, 38962, .other⟩,
  ⟨.var, 38989, .other⟩,
  ⟨.var, 39016, .other⟩,
  ⟨.var, 39043, .other⟩,
  ⟨.var, 39074, .other⟩,
  ⟨.var, 39111, .other⟩,
  ⟨.var, 39141, .other⟩,
  ⟨.var, 39175, (.valueSpec [⟨10692, s50, (some 192)⟩] [])⟩,
  ⟨.var, 39420, .other⟩,
  ⟨.var, 39677, .other⟩,
  ⟨.var, 39931, .other⟩,
  ⟨.var, 40183, .other⟩,
  ⟨.var, 40868, (.valueSpec [⟨10791, s80, (some 197)⟩] [])⟩,
  ⟨.typ, 42145, .typeSpec⟩,
  ⟨.fun_, 42192, (.funcDecl 41)⟩,
  ⟨.var, 42216, .other⟩,
  ⟨.var, 42242, .other⟩,
  ⟨.var, 42268, .other⟩,
  ⟨.var, 42301, (.valueSpec [⟨10853, s50, (some 203)⟩] [.unary 10856 false (.ident ⟨10855, s82, (some 200)⟩)])⟩,
  ⟨.var, 42512, (.valueSpec [⟨10860, s2, (some 204)⟩] [.unary 10862 false (.ident ⟨10861, s82, (some 200)⟩)])⟩,
  ⟨.typ, 44796, .typeSpec⟩,
  ⟨.fun_, 44960, .other⟩,
  ⟨.fun_, 45107, .other⟩,
  ⟨.fun_, 45182, .other⟩,
  ⟨.typ, 45271, .typeSpec⟩,
  ⟨.fun_, 45704, (.funcDecl 45)⟩,
  ⟨.var, 45740, (.valueSpec [⟨11063, s92, (some 211)⟩] [.compositeLit 11066 []])⟩,
  ⟨.typ, 46174, .typeSpec⟩,
  ⟨.fun_, 46257, .other⟩,
  ⟨.typ, 46297, .typeSpec⟩,
  ⟨.fun_, 46380, .other⟩,
  ⟨.typ, 46420, .typeSpec⟩,
  ⟨.fun_, 46503, .other⟩,
  ⟨.typ, 46543, .typeSpec⟩,
  ⟨.var, 46576, .other⟩,
  ⟨.var, 46587, .other⟩,
  ⟨.typ, 46604, .typeSpec⟩,
  ⟨.typ, 46636, .typeSpec⟩,
  ⟨.fun_, 47350, (.funcDecl 49)⟩,
  ⟨.var, 47375, .other⟩,
  ⟨.var, 47378, .other⟩,
  ⟨.var, 47385, .other⟩,
  ⟨.fun_, 47463, (.funcDecl 50)⟩,
  ⟨.var, 47488, .other⟩,
  ⟨.var, 47521, (.valueSpec [⟨11216, s98, (some 229)⟩] [.compositeLit 11225 [.basicLit 11219, .call 11224 (.ident ⟨11220, s96, (some 223)⟩)
  [.basicLit 11221, .basicLit 11222, .ident ⟨11223, s99, (some 228)⟩]]])⟩,
  ⟨.fun_, 48129, (.funcDecl 51)⟩]
/-- Types of expressions (`Info.Types`, `Info.Defs`, `Info.Uses`). -/
def typeTable : Tree GoType := (.node (.node (.node (.node (.node (.node (.node (.node (.node (.node (.node Tree.nil 8215 (.named 861) Tree.nil)
  8216 (.signature 6) (.node Tree.nil 8218 (.named 19) Tree.nil)) 8221 (.signature 6) (.node (.node Tree.nil 8224 (.interface 78) Tree.nil) 8227
  (.named 862) Tree.nil)) 8228 (.signature 6) (.node (.node (.node Tree.nil 8230 (.named 19) Tree.nil) 8233 (.signature 6) Tree.nil) 8235
  (.signature 27) (.node (.node Tree.nil 8238 (.string) Tree.nil) 8241 (.named 19) Tree.nil))) 8244 (.signature 27) (.node (.node (.node (.node
  Tree.nil 8246 (.signature 81) Tree.nil) 8249 (.string) (.node Tree.nil 8252 (.string) Tree.nil)) 8255 (.signature 81) (.node (.node Tree.nil 8258
  (.interface 99) Tree.nil) 8261 (.named 863) Tree.nil)) 8262 (.signature 66) (.node (.node (.node Tree.nil 8264 (.named 19) Tree.nil) 8265
  (.string) Tree.nil) 8269 (.signature 66) (.node (.node Tree.nil 8272 (.interface 96) Tree.nil) 8275 (.named 864) Tree.nil)))) 8276 (.named 861)
  (.node (.node (.node (.node (.node Tree.nil 8279 (.interface 78) Tree.nil) 8281 (.named 865) (.node Tree.nil 8282 (.named 861) Tree.nil)) 8284
  (.named 869) (.node (.node Tree.nil 8286 (.named 870) Tree.nil) 8289 (.interface 100) Tree.nil)) 8291 (.named 866) (.node (.node (.node Tree.nil
  8292 (.named 861) Tree.nil) 8295 (.named 770) Tree.nil) 8296 (.named 770) (.node (.node Tree.nil 8299 (.interface 78) Tree.nil) 8301 (.named 867)
  Tree.nil))) 8302 (.named 861) (.node (.node (.node (.node Tree.nil 8305 (.named 771) Tree.nil) 8306 (.named 771) (.node Tree.nil 8309 (.interface
  78) Tree.nil)) 8311 (.named 868) (.node (.node Tree.nil 8313 (.named 770) Tree.nil) 8314 (.named 770) Tree.nil)) 8317 (.named 771) (.node (.node
  (.node Tree.nil 8318 (.named 771) Tree.nil) 8321 (.interface 78) Tree.nil) 8323 (.named 869) (.node (.node Tree.nil 8324 (.signature 6) Tree.nil)
  8326 (.named 19) Tree.nil))))) 8329 (.signature 6) (.node (.node (.node (.node (.node (.node Tree.nil 8332 (.interface 78) Tree.nil) 8334 (.named
  870) (.node Tree.nil 8335 (.signature 6) Tree.nil)) 8337 (.named 19) (.node (.node Tree.nil 8340 (.signature 6) Tree.nil) 8343 (.interface 90)
  Tree.nil)) 8345 (.named 871) (.node (.node (.node Tree.nil 8346 (.named 861) Tree.nil) 8348 (.signature 6) Tree.nil) 8350 (.named 19) (.node
  (.node Tree.nil 8353 (.signature 6) Tree.nil) 8356 (.interface 78) Tree.nil))) 8359 (.signature 101) (.node (.node (.node (.node Tree.nil 8360
  (.named 862) Tree.nil) 8361 (.named 862) (.node Tree.nil 8362 (.string) Tree.nil)) 8363 (.string) (.node (.node Tree.nil 8364 (.string) Tree.nil)
  8368 (.named 19) Tree.nil)) 8371 (.signature 101) (.node (.node (.node Tree.nil 8372 (.other 10) Tree.nil) 8374 (.named 862) Tree.nil) 8375
  (.signature 6) (.node (.node Tree.nil 8376 (.signature 6) Tree.nil) 8377 (.named 19) Tree.nil)))) 8381 (.named 862) (.node (.node (.node (.node
  (.node Tree.nil 8382 (.signature 27) Tree.nil) 8383 (.signature 27) (.node Tree.nil 8384 (.string) Tree.nil)) 8385 (.string) (.node (.node
  Tree.nil 8386 (.named 19) Tree.nil) 8390 (.signature 27) Tree.nil)) 8391 (.string) (.node (.node (.node Tree.nil 8392 (.string) Tree.nil) 8393
  (.string) Tree.nil) 8396 (.named 19) (.node (.node Tree.nil 8399 (.signature 27) Tree.nil) 8400 (.other 10) Tree.nil))) 8402 (.signature 101)
  (.node (.node (.node (.node Tree.nil 8404 (.named 778) Tree.nil) 8405 (.named 778) Tree.nil) 8406 (.named 778) (.node (.node Tree.nil 8407
  (.string) Tree.nil) 8408 (.string) Tree.nil)) 8409 (.named 19) (.node (.node (.node Tree.nil 8413 (.signature 101) Tree.nil) 8415 (.named 824)
  Tree.nil) 8416 (.named 824) (.node (.node Tree.nil 8417 (.named 824) Tree.nil) 8418 (.string) Tree.nil)))))) 8419 (.string) (.node (.node (.node
  (.node (.node (.node (.node Tree.nil 8420 (.named 19) Tree.nil) 8424 (.named 874) (.node Tree.nil 8426 (.struct 2) Tree.nil)) 8428 (.named 875)
  (.node (.node Tree.nil 8430 (.struct 2) Tree.nil) 8432 (.named 876) Tree.nil)) 8434 (.struct 2) (.node (.node (.node Tree.nil 8437 (.named 874)
  Tree.nil) 8440 (.signature 6) Tree.nil) 8442 (.named 19) (.node (.node Tree.nil 8445 (.signature 6) Tree.nil) 8446 (.named 888) Tree.nil))) 8447
  (.string) (.node (.node (.node (.node Tree.nil 8448 (.named 888) Tree.nil) 8449 (.pointer (.named 888)) (.node Tree.nil 8453 (.named 874)
  Tree.nil)) 8456 (.signature 80) (.node (.node Tree.nil 8457 (.string) Tree.nil) 8458 (.string) Tree.nil)) 8459 (.string) (.node (.node (.node
  Tree.nil 8463 (.named 786) Tree.nil) 8464 (.named 786) Tree.nil) 8465 (.pointer (.named 786)) (.node (.node Tree.nil 8468 (.signature 80)
  Tree.nil) 8470 (.named 786) Tree.nil)))) 8471 (.named 786) (.node (.node (.node (.node (.node Tree.nil 8472 (.string) Tree.nil) 8473 (.named 786)
  (.node Tree.nil 8474 (.pointer (.named 786)) Tree.nil)) 8478 (.named 874) (.node (.node Tree.nil 8481 (.signature 81) Tree.nil) 8482 (.string)
  Tree.nil)) 8483 (.string) (.node (.node (.node Tree.nil 8484 (.string) Tree.nil) 8487 (.string) Tree.nil) 8490 (.signature 81) (.node (.node
  Tree.nil 8491 (.string) Tree.nil) 8495 (.named 875) Tree.nil))) 8498 (.signature 6) (.node (.node (.node (.node Tree.nil 8500 (.named 19)
  Tree.nil) 8503 (.signature 6) Tree.nil) 8504 (.named 888) (.node (.node Tree.nil 8505 (.string) Tree.nil) 8506 (.named 888) Tree.nil)) 8507
  (.pointer (.named 888)) (.node (.node (.node Tree.nil 8511 (.named 876) Tree.nil) 8514 (.signature 6) Tree.nil) 8516 (.named 19) (.node (.node
  Tree.nil 8519 (.signature 6) Tree.nil) 8520 (.untypedNil) Tree.nil))))) 8524 (.named 876) (.node (.node (.node (.node (.node (.node Tree.nil 8527
  (.signature 6) Tree.nil) 8529 (.named 19) (.node Tree.nil 8532 (.signature 6) Tree.nil)) 8533 (.other 10) (.node (.node Tree.nil 8535 (.named 888)
  Tree.nil) 8536 (.string) Tree.nil)) 8537 (.named 888) (.node (.node (.node Tree.nil 8538 (.pointer (.named 888)) Tree.nil) 8542 (.named 888)
  Tree.nil) 8543 (.string) (.node (.node Tree.nil 8544 (.named 888) Tree.nil) 8545 (.pointer (.named 888)) Tree.nil))) 8549 (.signature 27) (.node
  (.node (.node (.node Tree.nil 8550 (.string) Tree.nil) 8551 (.string) (.node Tree.nil 8552 (.string) Tree.nil)) 8555 (.named 19) (.node (.node
  Tree.nil 8558 (.signature 27) Tree.nil) 8560 (.signature 82) Tree.nil)) 8561 (.signature 82) (.node (.node (.node Tree.nil 8562 (.string)
  Tree.nil) 8563 (.string) Tree.nil) 8565 (.named 832) (.node (.node Tree.nil 8566 (.named 832) Tree.nil) 8567 (.named 832) Tree.nil)))) 8568
  (.named 19) (.node (.node (.node (.node (.node Tree.nil 8572 (.named 884) Tree.nil) 8573 (.signature 11) (.node Tree.nil 8575 (.string) Tree.nil))
  8578 (.signature 11) (.node (.node Tree.nil 8580 (.signature 11) Tree.nil) 8582 (.string) Tree.nil)) 8585 (.signature 11) (.node (.node (.node
  Tree.nil 8587 (.signature 23) Tree.nil) 8589 (.string) Tree.nil) 8590 (.string) (.node (.node Tree.nil 8591 (.map (.string) (.string)) Tree.nil)
  8594 (.signature 23) Tree.nil))) 8596 (.signature 6) (.node (.node (.node (.node Tree.nil 8598 (.named 19) Tree.nil) 8601 (.signature 6) Tree.nil)
  8603 (.signature 11) (.node (.node Tree.nil 8605 (.string) Tree.nil) 8608 (.signature 11) Tree.nil)) 8611 (.interface 86) (.node (.node (.node
  Tree.nil 8614 (.signature 102) Tree.nil) 8616 (.named 884) Tree.nil) 8619 (.signature 102) (.node (.node Tree.nil 8620 (.named 888) Tree.nil) 8621
  (.string) Tree.nil))))))) 8622 (.named 888) (.node (.node (.node (.node (.node (.node (.node (.node Tree.nil 8623 (.pointer (.named 888))
  Tree.nil) 8627 (.signature 103) (.node Tree.nil 8628 (.named 864) Tree.nil)) 8629 (.named 864) (.node (.node Tree.nil 8632 (.named 19) Tree.nil)
  8635 (.signature 103) Tree.nil)) 8636 (.named 864) (.node (.node (.node Tree.nil 8637 (.signature 6) Tree.nil) 8638 (.signature 6) Tree.nil) 8639
  (.named 19) (.node (.node Tree.nil 8643 (.signature 104) Tree.nil) 8644 (.named 864) Tree.nil))) 8645 (.named 864) (.node (.node (.node (.node
  Tree.nil 8648 (.named 861) Tree.nil) 8651 (.signature 104) (.node Tree.nil 8652 (.named 864) Tree.nil)) 8656 (.named 888) (.node (.node Tree.nil
  8657 (.string) Tree.nil) 8658 (.string) Tree.nil)) 8661 (.struct 1) (.node (.node (.node Tree.nil 8664 (.pointer (.named 888)) Tree.nil) 8665
  (.named 888) Tree.nil) 8666 (.pointer (.named 888)) (.node (.node Tree.nil 8669 (.signature 11) Tree.nil) 8671 (.string) Tree.nil)))) 8674
  (.signature 11) (.node (.node (.node (.node (.node Tree.nil 8675 (.pointer (.named 888)) Tree.nil) 8676 (.string) (.node Tree.nil 8677 (.string)
  Tree.nil)) 8681 (.pointer (.named 888)) (.node (.node Tree.nil 8682 (.named 888) Tree.nil) 8683 (.pointer (.named 888)) Tree.nil)) 8686
  (.signature 11) (.node (.node (.node Tree.nil 8688 (.string) Tree.nil) 8691 (.signature 11) Tree.nil) 8692 (.pointer (.named 888)) (.node (.node
  Tree.nil 8693 (.string) Tree.nil) 8694 (.string) Tree.nil))) 8698 (.pointer (.named 888)) (.node (.node (.node (.node Tree.nil 8699 (.named 888)
  Tree.nil) 8700 (.pointer (.named 888)) (.node Tree.nil 8703 (.signature 23) Tree.nil)) 8705 (.string) (.node (.node Tree.nil 8706 (.string)
  Tree.nil) 8707 (.map (.string) (.string)) Tree.nil)) 8710 (.signature 23) (.node (.node (.node Tree.nil 8711 (.untypedNil) Tree.nil) 8715
  (.pointer (.named 888)) Tree.nil) 8716 (.named 888) (.node (.node Tree.nil 8717 (.pointer (.named 888)) Tree.nil) 8720 (.signature 6)
  Tree.nil))))) 8722 (.named 19) (.node (.node (.node (.node (.node (.node Tree.nil 8725 (.signature 6) Tree.nil) 8726 (.untypedNil) (.node Tree.nil
  8730 (.pointer (.named 888)) Tree.nil)) 8731 (.named 888) (.node (.node Tree.nil 8732 (.pointer (.named 888)) Tree.nil) 8735 (.signature 11)
  Tree.nil)) 8737 (.string) (.node (.node (.node Tree.nil 8740 (.signature 11) Tree.nil) 8741 (.pointer (.named 888)) Tree.nil) 8742 (.signature 11)
  (.node (.node Tree.nil 8743 (.signature 11) Tree.nil) 8744 (.string) Tree.nil))) 8758 (.named 894) (.node (.node (.node (.node Tree.nil 8759
  (.named 861) Tree.nil) 8761 (.named 869) (.node Tree.nil 8763 (.named 870) Tree.nil)) 8766 (.interface 100) (.node (.node Tree.nil 8768 (.named
  895) Tree.nil) 8769 (.named 861) Tree.nil)) 8772 (.interface 78) (.node (.node (.node Tree.nil 8774 (.named 896) Tree.nil) 8775 (.named 861)
  Tree.nil) 8777 (.signature 6) (.node (.node Tree.nil 8779 (.named 19) Tree.nil) 8782 (.signature 6) Tree.nil)))) 8785 (.interface 78) (.node
  (.node (.node (.node (.node Tree.nil 8949 (.named 897) Tree.nil) 8951 (.struct 2) (.node Tree.nil 8954 (.named 898) Tree.nil)) 8955 (.signature 6)
  (.node (.node Tree.nil 8957 (.named 19) Tree.nil) 8960 (.signature 6) Tree.nil)) 8962 (.signature 6) (.node (.node (.node Tree.nil 8964 (.named
  19) Tree.nil) 8967 (.signature 6) Tree.nil) 8970 (.interface 98) (.node (.node Tree.nil 8973 (.named 897) Tree.nil) 8976 (.signature 6)
  Tree.nil))) 8978 (.named 19) (.node (.node (.node (.node Tree.nil 8981 (.signature 6) Tree.nil) 8982 (.named 888) Tree.nil) 8983 (.string) (.node
  (.node Tree.nil 8984 (.named 888) Tree.nil) 8985 (.pointer (.named 888)) Tree.nil)) 8989 (.signature 105) (.node (.node (.node Tree.nil 8991
  (.named 861) Tree.nil) 8994 (.signature 105) Tree.nil) 8995 (.named 897) (.node (.node Tree.nil 8996 (.named 897) Tree.nil) 9000 (.signature 106)
  Tree.nil)))))) 9002 (.other 8) (.node (.node (.node (.node (.node (.node (.node Tree.nil 9003 (.other 8) Tree.nil) 9004 (.named 861) (.node
  Tree.nil 9009 (.signature 106) Tree.nil)) 9010 (.other 8) (.node (.node Tree.nil 9011 (.other 8) Tree.nil) 9012 (.named 897) Tree.nil)) 9013
  (.named 897) (.node (.node (.node Tree.nil 9017 (.signature 107) Tree.nil) 9019 (.other 8) Tree.nil) 9020 (.other 8) (.node (.node Tree.nil 9021
  (.other 8) Tree.nil) 9022 (.named 861) Tree.nil))) 9023 (.named 861) (.node (.node (.node (.node Tree.nil 9024 (.named 861) Tree.nil) 9028
  (.signature 107) (.node Tree.nil 9029 (.other 8) Tree.nil)) 9030 (.other 8) (.node (.node Tree.nil 9031 (.untypedNil) Tree.nil) 9032 (.named 897)
  Tree.nil)) 9033 (.named 897) (.node (.node (.node Tree.nil 9037 (.signature 108) Tree.nil) 9039 (.named 861) Tree.nil) 9040 (.pointer (.named
  861)) (.node (.node Tree.nil 9043 (.signature 108) Tree.nil) 9044 (.named 861) Tree.nil)))) 9045 (.named 861) (.node (.node (.node (.node (.node
  Tree.nil 9049 (.named 861) Tree.nil) 9050 (.named 897) (.node Tree.nil 9051 (.named 897) Tree.nil)) 9053 (.named 861) (.node (.node Tree.nil 9054
  (.pointer (.named 861)) Tree.nil) 9058 (.signature 15) Tree.nil)) 9060 (.signature 15) (.node (.node (.node Tree.nil 9061 (.other 8) Tree.nil)
  9062 (.other 8) Tree.nil) 9063 (.other 8) (.node (.node Tree.nil 9067 (.named 861) Tree.nil) 9068 (.named 861) Tree.nil))) 9072 (.other 8) (.node
  (.node (.node (.node Tree.nil 9073 (.other 8) Tree.nil) 9074 (.named 861) Tree.nil) 9075 (.other 8) (.node (.node Tree.nil 9076 (.other 8)
  Tree.nil) 9077 (.named 897) Tree.nil)) 9078 (.named 897) (.node (.node (.node Tree.nil 9083 (.other 8) Tree.nil) 9084 (.other 8) Tree.nil) 9085
  (.named 861) (.node (.node Tree.nil 9089 (.signature 109) Tree.nil) 9091 (.other 8) Tree.nil))))) 9092 (.other 8) (.node (.node (.node (.node
  (.node (.node Tree.nil 9093 (.named 861) Tree.nil) 9094 (.named 861) (.node Tree.nil 9095 (.named 861) Tree.nil)) 9099 (.signature 109) (.node
  (.node Tree.nil 9100 (.other 8) Tree.nil) 9101 (.other 8) Tree.nil)) 9103 (.named 861) (.node (.node (.node Tree.nil 9104 (.untypedNil) Tree.nil)
  9106 (.named 861) Tree.nil) 9107 (.named 897) (.node (.node Tree.nil 9108 (.named 897) Tree.nil) 9113 (.signature 110) Tree.nil))) 9115 (.named
  897) (.node (.node (.node (.node Tree.nil 9116 (.named 897) Tree.nil) 9120 (.signature 110) (.node Tree.nil 9121 (.named 897) Tree.nil)) 9122
  (.named 897) (.node (.node Tree.nil 9123 (.named 897) Tree.nil) 9124 (.named 897) Tree.nil)) 9128 (.signature 15) (.node (.node (.node Tree.nil
  9130 (.signature 15) Tree.nil) 9131 (.named 861) Tree.nil) 9132 (.named 861) (.node (.node Tree.nil 9136 (.named 897) Tree.nil) 9137 (.named 861)
  Tree.nil)))) 9138 (.signature 110) (.node (.node (.node (.node (.node Tree.nil 9139 (.tuple 111) Tree.nil) 9143 (.named 897) (.node Tree.nil 9144
  (.named 861) Tree.nil)) 9146 (.named 861) (.node (.node Tree.nil 9147 (.named 861) Tree.nil) 9148 (.named 861) Tree.nil)) 9152 (.named 861) (.node
  (.node (.node Tree.nil 9153 (.named 861) Tree.nil) 9154 (.signature 110) Tree.nil) 9155 (.tuple 111) (.node (.node Tree.nil 9159 (.named 861)
  Tree.nil) 9160 (.named 861) Tree.nil))) 9164 (.signature 15) (.node (.node (.node (.node Tree.nil 9166 (.signature 15) Tree.nil) 9167 (.named 861)
  Tree.nil) 9168 (.named 861) (.node (.node Tree.nil 9169 (.named 897) Tree.nil) 9170 (.named 897) Tree.nil)) 9174 (.named 861) (.node (.node (.node
  Tree.nil 9175 (.named 861) Tree.nil) 9176 (.named 861) Tree.nil) 9177 (.named 861) (.node (.node Tree.nil 9178 (.untypedNil) Tree.nil) 9179
  (.named 897) Tree.nil)))))))) 9180 (.named 897) (.node (.node (.node (.node (.node (.node (.node (.node (.node Tree.nil 9181 (.untypedNil)
  Tree.nil) 9185 (.named 861) (.node Tree.nil 9186 (.named 861) Tree.nil)) 9187 (.named 861) (.node (.node Tree.nil 9188 (.signature 110) Tree.nil)
  9189 (.tuple 111) Tree.nil)) 9197 (.named 861) (.node (.node (.node Tree.nil 9198 (.named 861) Tree.nil) 9199 (.named 861) Tree.nil) 9200 (.named
  861) (.node (.node Tree.nil 9204 (.signature 112) Tree.nil) 9205 (.map (.other 8) (.named 897)) Tree.nil))) 9206 (.other 8) (.node (.node (.node
  (.node Tree.nil 9207 (.named 897) Tree.nil) 9208 (.map (.other 8) (.named 897)) (.node Tree.nil 9211 (.signature 112) Tree.nil)) 9212 (.named 861)
  (.node (.node Tree.nil 9213 (.named 861) Tree.nil) 9217 (.other 10) Tree.nil)) 9218 (.other 10) (.node (.node (.node Tree.nil 9222 (.named 861)
  Tree.nil) 9223 (.map (.other 8) (.named 897)) Tree.nil) 9224 (.other 8) (.node (.node Tree.nil 9225 (.named 897) Tree.nil) 9227 (.other 10)
  Tree.nil)))) 9230 (.named 861) (.node (.node (.node (.node (.node Tree.nil 9234 (.named 861) Tree.nil) 9235 (.other 10) (.node Tree.nil 9236 (.map
  (.other 8) (.named 897)) Tree.nil)) 9237 (.other 8) (.node (.node Tree.nil 9238 (.tuple 113) Tree.nil) 9240 (.other 10) Tree.nil)) 9243 (.named
  861) (.node (.node (.node Tree.nil 9247 (.named 861) Tree.nil) 9248 (.other 10) Tree.nil) 9249 (.map (.other 8) (.named 897)) (.node (.node
  Tree.nil 9250 (.other 8) Tree.nil) 9251 (.tuple 113) Tree.nil))) 9253 (.other 10) (.node (.node (.node (.node Tree.nil 9256 (.named 861) Tree.nil)
  9260 (.named 861) (.node Tree.nil 9261 (.other 10) Tree.nil)) 9262 (.map (.other 8) (.named 897)) (.node (.node Tree.nil 9263 (.other 8) Tree.nil)
  9264 (.tuple 113) Tree.nil)) 9266 (.other 10) (.node (.node (.node Tree.nil 9268 (.named 861) Tree.nil) 9275 (.signature 114) Tree.nil) 9276
  (.other 8) (.node (.node Tree.nil 9277 (.other 8) Tree.nil) 9278 (.other 8) Tree.nil))))) 9279 (.named 861) (.node (.node (.node (.node (.node
  (.node Tree.nil 9280 (.named 861) Tree.nil) 9284 (.signature 114) (.node Tree.nil 9287 (.signature 115) Tree.nil)) 9288 (.other 8) (.node (.node
  Tree.nil 9289 (.other 8) Tree.nil) 9290 (.slice (.named 861)) Tree.nil)) 9291 (.named 861) (.node (.node (.node Tree.nil 9292 (.slice (.named
  861)) Tree.nil) 9296 (.signature 115) Tree.nil) 9299 (.signature 116) (.node (.node Tree.nil 9300 (.other 8) Tree.nil) 9301 (.other 8) Tree.nil)))
  9302 (.slice (.named 861)) (.node (.node (.node (.node Tree.nil 9303 (.named 861) Tree.nil) 9304 (.slice (.named 861)) (.node Tree.nil 9308
  (.signature 116) Tree.nil)) 9311 (.signature 15) (.node (.node Tree.nil 9313 (.signature 15) Tree.nil) 9314 (.named 897) Tree.nil)) 9315 (.named
  897) (.node (.node (.node Tree.nil 9316 (.named 897) Tree.nil) 9318 (.signature 114) Tree.nil) 9319 (.other 8) (.node (.node Tree.nil 9320 (.other
  8) Tree.nil) 9321 (.named 897) Tree.nil)))) 9322 (.tuple 56) (.node (.node (.node (.node (.node Tree.nil 9324 (.signature 114) Tree.nil) 9325
  (.other 8) (.node Tree.nil 9326 (.other 8) Tree.nil)) 9327 (.untypedNil) (.node (.node Tree.nil 9328 (.tuple 56) Tree.nil) 9330 (.signature 115)
  Tree.nil)) 9331 (.other 8) (.node (.node (.node Tree.nil 9332 (.other 8) Tree.nil) 9333 (.untypedNil) Tree.nil) 9334 (.named 897) (.node (.node
  Tree.nil 9335 (.tuple 56) Tree.nil) 9337 (.signature 115) Tree.nil))) 9338 (.other 8) (.node (.node (.node (.node Tree.nil 9339 (.other 8)
  Tree.nil) 9340 (.named 897) Tree.nil) 9341 (.untypedNil) (.node (.node Tree.nil 9342 (.untypedNil) Tree.nil) 9343 (.tuple 56) Tree.nil)) 9345
  (.signature 115) (.node (.node (.node Tree.nil 9346 (.other 8) Tree.nil) 9347 (.other 8) Tree.nil) 9348 (.untypedNil) (.node (.node Tree.nil 9349
  (.untypedNil) Tree.nil) 9350 (.untypedNil) Tree.nil)))))) 9351 (.tuple 56) (.node (.node (.node (.node (.node (.node (.node Tree.nil 9353
  (.signature 116) Tree.nil) 9354 (.other 8) (.node Tree.nil 9355 (.named 861) Tree.nil)) 9356 (.slice (.named 861)) (.node (.node Tree.nil 9357
  (.untypedNil) Tree.nil) 9358 (.untypedNil) Tree.nil)) 9359 (.slice (.named 861)) (.node (.node (.node Tree.nil 9360 (.tuple 56) Tree.nil) 9362
  (.signature 116) Tree.nil) 9363 (.other 8) (.node (.node Tree.nil 9364 (.untypedNil) Tree.nil) 9365 (.tuple 56) Tree.nil))) 9367 (.slice (.named
  861)) (.node (.node (.node (.node Tree.nil 9368 (.named 861) Tree.nil) 9369 (.slice (.named 861)) (.node Tree.nil 9373 (.slice (.named 861))
  Tree.nil)) 9374 (.signature 117) (.node (.node Tree.nil 9375 (.slice (.named 861)) Tree.nil) 9376 (.named 897) Tree.nil)) 9377 (.slice (.named
  861)) (.node (.node (.node Tree.nil 9379 (.slice (.named 861)) Tree.nil) 9380 (.signature 117) Tree.nil) 9381 (.slice (.named 861)) (.node (.node
  Tree.nil 9382 (.untypedNil) Tree.nil) 9383 (.untypedNil) Tree.nil)))) 9384 (.named 897) (.node (.node (.node (.node (.node Tree.nil 9385 (.slice
  (.named 861)) Tree.nil) 9387 (.slice (.named 861)) (.node Tree.nil 9388 (.signature 117) Tree.nil)) 9389 (.slice (.named 861)) (.node (.node
  Tree.nil 9390 (.untypedNil) Tree.nil) 9391 (.untypedNil) Tree.nil)) 9392 (.slice (.named 861)) (.node (.node (.node Tree.nil 9394 (.signature 118)
  Tree.nil) 9395 (.named 861) Tree.nil) 9396 (.named 861) (.node (.node Tree.nil 9399 (.signature 118) Tree.nil) 9401 (.signature 118) Tree.nil)))
  9403 (.signature 118) (.node (.node (.node (.node Tree.nil 9404 (.named 897) Tree.nil) 9405 (.named 897) Tree.nil) 9406 (.tuple 56) (.node (.node
  Tree.nil 9410 (.named 914) Tree.nil) 9411 (.named 861) Tree.nil)) 9413 (.struct 2) (.node (.node (.node Tree.nil 9414 (.map (.named 861) (.struct
  2)) Tree.nil) 9417 (.signature 119) Tree.nil) 9418 (.map (.named 861) (.struct 2)) (.node (.node Tree.nil 9419 (.named 861) Tree.nil) 9421
  (.struct 2) Tree.nil))))) 9422 (.map (.named 861) (.struct 2)) (.node (.node (.node (.node (.node (.node Tree.nil 9423 (.named 914) Tree.nil) 9424
  (.named 914) (.node Tree.nil 9425 (.slice (.struct 2)) Tree.nil)) 9427 (.struct 2) (.node (.node Tree.nil 9428 (.slice (.struct 2)) Tree.nil) 9433
  (.signature 119) Tree.nil)) 9435 (.map (.named 861) (.struct 2)) (.node (.node (.node Tree.nil 9436 (.named 897) Tree.nil) 9437 (.named 897)
  Tree.nil) 9438 (.struct 2) (.node (.node Tree.nil 9441 (.map (.named 861) (.struct 2)) Tree.nil) 9442 (.untypedNil) Tree.nil))) 9443 (.struct 2)
  (.node (.node (.node (.node Tree.nil 9446 (.named 914) Tree.nil) 9447 (.named 897) (.node Tree.nil 9448 (.named 897) Tree.nil)) 9449 (.struct 2)
  (.node (.node Tree.nil 9452 (.named 914) Tree.nil) 9453 (.untypedNil) Tree.nil)) 9454 (.struct 2) (.node (.node (.node Tree.nil 9457 (.slice
  (.struct 2)) Tree.nil) 9458 (.other 8) Tree.nil) 9459 (.struct 2) (.node (.node Tree.nil 9463 (.named 916) Tree.nil) 9464 (.signature 6)
  Tree.nil)))) 9466 (.named 19) (.node (.node (.node (.node (.node Tree.nil 9469 (.signature 6) Tree.nil) 9472 (.interface 78) (.node Tree.nil 9475
  (.named 917) Tree.nil)) 9476 (.signature 15) (.node (.node Tree.nil 9478 (.signature 15) Tree.nil) 9481 (.interface 92) Tree.nil)) 9484
  (.signature 120) (.node (.node (.node Tree.nil 9485 (.named 916) Tree.nil) 9486 (.named 916) Tree.nil) 9487 (.named 917) (.node (.node Tree.nil
  9488 (.named 917) Tree.nil) 9492 (.signature 120) Tree.nil))) 9494 (.named 861) (.node (.node (.node (.node Tree.nil 9495 (.named 897) Tree.nil)
  9496 (.named 897) Tree.nil) 9497 (.named 861) (.node (.node Tree.nil 9500 (.named 861) Tree.nil) 9501 (.untypedNil) Tree.nil)) 9502 (.named 861)
  (.node (.node (.node Tree.nil 9505 (.named 861) Tree.nil) 9506 (.named 916) Tree.nil) 9507 (.named 861) (.node (.node Tree.nil 9510 (.named 916)
  Tree.nil) 9511 (.named 861) Tree.nil))))))) 9512 (.named 861) (.node (.node (.node (.node (.node (.node (.node (.node Tree.nil 9514 (.named 861)
  Tree.nil) 9515 (.other 10) (.node Tree.nil 9516 (.named 916) Tree.nil)) 9517 (.named 861) (.node (.node Tree.nil 9518 (.tuple 121) Tree.nil) 9522
  (.named 861) Tree.nil)) 9523 (.other 10) (.node (.node (.node Tree.nil 9526 (.named 916) Tree.nil) 9527 (.named 917) Tree.nil) 9528 (.named 917)
  (.node (.node Tree.nil 9529 (.named 861) Tree.nil) 9530 (.named 861) Tree.nil))) 9532 (.named 861) (.node (.node (.node (.node Tree.nil 9533
  (.named 861) Tree.nil) 9538 (.named 916) (.node Tree.nil 9541 (.named 917) Tree.nil)) 9543 (.named 917) (.node (.node Tree.nil 9546 (.named 861)
  Tree.nil) 9547 (.named 861) Tree.nil)) 9548 (.named 861) (.node (.node (.node Tree.nil 9552 (.named 916) Tree.nil) 9558 (.named 861) Tree.nil)
  9562 (.named 919) (.node (.node Tree.nil 9563 (.named 861) Tree.nil) 9564 (.named 861) Tree.nil)))) 9567 (.struct 93) (.node (.node (.node (.node
  (.node Tree.nil 9570 (.named 920) Tree.nil) 9571 (.other 8) (.node Tree.nil 9572 (.other 8) Tree.nil)) 9573 (.other 8) (.node (.node Tree.nil 9575
  (.named 861) Tree.nil) 9576 (.named 861) Tree.nil)) 9578 (.named 861) (.node (.node (.node Tree.nil 9579 (.named 861) Tree.nil) 9580 (.named 861)
  Tree.nil) 9583 (.struct 88) (.node (.node Tree.nil 9586 (.named 921) Tree.nil) 9587 (.other 8) Tree.nil))) 9588 (.other 8) (.node (.node (.node
  (.node Tree.nil 9589 (.other 8) Tree.nil) 9591 (.named 861) (.node Tree.nil 9592 (.named 861) Tree.nil)) 9593 (.named 861) (.node (.node Tree.nil
  9596 (.struct 94) Tree.nil) 9599 (.signature 15) Tree.nil)) 9601 (.signature 15) (.node (.node (.node Tree.nil 9603 (.named 919) Tree.nil) 9604
  (.named 897) Tree.nil) 9605 (.named 897) (.node (.node Tree.nil 9606 (.named 919) Tree.nil) 9609 (.named 919) Tree.nil))))) 9610 (.untypedNil)
  (.node (.node (.node (.node (.node (.node Tree.nil 9611 (.named 919) Tree.nil) 9614 (.named 919) (.node Tree.nil 9615 (.named 861) Tree.nil)) 9616
  (.named 897) (.node (.node Tree.nil 9617 (.named 897) Tree.nil) 9619 (.named 919) Tree.nil)) 9622 (.named 919) (.node (.node (.node Tree.nil 9623
  (.named 861) Tree.nil) 9624 (.untypedNil) Tree.nil) 9626 (.named 919) (.node (.node Tree.nil 9629 (.named 919) Tree.nil) 9630 (.named 919)
  Tree.nil))) 9633 (.named 919) (.node (.node (.node (.node Tree.nil 9634 (.named 897) Tree.nil) 9635 (.named 897) (.node Tree.nil 9636 (.named 919)
  Tree.nil)) 9637 (.pointer (.named 919)) (.node (.node Tree.nil 9640 (.named 920) Tree.nil) 9641 (.other 8) Tree.nil)) 9642 (.other 8) (.node
  (.node (.node Tree.nil 9643 (.named 897) Tree.nil) 9644 (.named 897) Tree.nil) 9645 (.untypedNil) (.node (.node Tree.nil 9646 (.untypedNil)
  Tree.nil) 9647 (.named 920) Tree.nil)))) 9650 (.named 920) (.node (.node (.node (.node (.node Tree.nil 9651 (.other 8) Tree.nil) 9652 (.other 8)
  (.node Tree.nil 9653 (.untypedNil) Tree.nil)) 9654 (.untypedNil) (.node (.node Tree.nil 9655 (.named 897) Tree.nil) 9656 (.named 897) Tree.nil))
  9657 (.named 920) (.node (.node (.node Tree.nil 9660 (.named 920) Tree.nil) 9661 (.other 8) Tree.nil) 9662 (.other 8) (.node (.node Tree.nil 9663
  (.named 897) Tree.nil) 9664 (.named 897) Tree.nil))) 9665 (.named 897) (.node (.node (.node (.node Tree.nil 9666 (.named 897) Tree.nil) 9667
  (.named 897) Tree.nil) 9668 (.named 897) (.node (.node Tree.nil 9669 (.named 920) Tree.nil) 9672 (.named 920) Tree.nil)) 9673 (.named 920) (.node
  (.node (.node Tree.nil 9676 (.named 921) Tree.nil) 9677 (.other 8) Tree.nil) 9678 (.other 8) (.node (.node Tree.nil 9679 (.untypedNil) Tree.nil)
  9680 (.untypedNil) Tree.nil)))))) 9681 (.named 921) (.node (.node (.node (.node (.node (.node (.node Tree.nil 9684 (.named 921) Tree.nil) 9685
  (.other 8) (.node Tree.nil 9686 (.other 8) Tree.nil)) 9687 (.untypedNil) (.node (.node Tree.nil 9688 (.named 897) Tree.nil) 9689 (.named 897)
  Tree.nil)) 9690 (.named 921) (.node (.node (.node Tree.nil 9693 (.named 921) Tree.nil) 9694 (.other 8) Tree.nil) 9695 (.other 8) (.node (.node
  Tree.nil 9697 (.other 8) Tree.nil) 9698 (.other 8) Tree.nil))) 9700 (.named 861) (.node (.node (.node (.node Tree.nil 9701 (.untypedNil) Tree.nil)
  9703 (.named 861) (.node Tree.nil 9704 (.named 897) Tree.nil)) 9705 (.named 897) (.node (.node Tree.nil 9707 (.named 921) Tree.nil) 9710 (.named
  921) Tree.nil)) 9711 (.other 8) (.node (.node (.node Tree.nil 9712 (.other 8) Tree.nil) 9714 (.named 861) Tree.nil) 9715 (.untypedNil) (.node
  (.node Tree.nil 9717 (.named 861) Tree.nil) 9718 (.named 897) Tree.nil)))) 9719 (.named 897) (.node (.node (.node (.node (.node Tree.nil 9721
  (.named 921) Tree.nil) 9724 (.named 921) (.node Tree.nil 9725 (.other 8) Tree.nil)) 9726 (.other 8) (.node (.node Tree.nil 9728 (.named 921)
  Tree.nil) 9731 (.named 919) Tree.nil)) 9732 (.slice (.named 919)) (.node (.node (.node Tree.nil 9733 (.named 861) Tree.nil) 9734 (.named 897)
  Tree.nil) 9735 (.named 897) (.node (.node Tree.nil 9737 (.named 919) Tree.nil) 9738 (.named 897) Tree.nil))) 9739 (.named 897) (.node (.node
  (.node (.node Tree.nil 9740 (.named 919) Tree.nil) 9741 (.named 861) Tree.nil) 9742 (.untypedNil) (.node (.node Tree.nil 9744 (.named 919)
  Tree.nil) 9745 (.untypedNil) Tree.nil)) 9746 (.named 919) (.node (.node (.node Tree.nil 9747 (.named 919) Tree.nil) 9748 (.slice (.named 919))
  Tree.nil) 9751 (.named 861) (.node (.node Tree.nil 9752 (.named 861) Tree.nil) 9755 (.struct 93) Tree.nil))))) 9756 (.named 861) (.node (.node
  (.node (.node (.node (.node Tree.nil 9757 (.named 897) Tree.nil) 9758 (.named 897) (.node Tree.nil 9760 (.struct 93) Tree.nil)) 9763 (.named 861)
  (.node (.node Tree.nil 9764 (.named 861) Tree.nil) 9767 (.struct 93) Tree.nil)) 9768 (.named 897) (.node (.node (.node Tree.nil 9769 (.named 897)
  Tree.nil) 9770 (.struct 93) Tree.nil) 9773 (.named 861) (.node (.node Tree.nil 9774 (.named 861) Tree.nil) 9777 (.struct 93) Tree.nil))) 9778
  (.named 861) (.node (.node (.node (.node Tree.nil 9779 (.untypedNil) Tree.nil) 9781 (.struct 93) (.node Tree.nil 9784 (.named 861) Tree.nil)) 9785
  (.named 861) (.node (.node Tree.nil 9788 (.struct 93) Tree.nil) 9789 (.untypedNil) Tree.nil)) 9790 (.struct 93) (.node (.node (.node Tree.nil 9793
  (.named 861) Tree.nil) 9794 (.named 861) Tree.nil) 9797 (.struct 93) (.node (.node Tree.nil 9798 (.struct 93) Tree.nil) 9801 (.named 861)
  Tree.nil)))) 9802 (.named 861) (.node (.node (.node (.node (.node Tree.nil 9805 (.struct 93) Tree.nil) 9806 (.slice (.struct 93)) (.node Tree.nil
  9807 (.named 861) Tree.nil)) 9808 (.named 897) (.node (.node Tree.nil 9809 (.named 897) Tree.nil) 9811 (.struct 93) Tree.nil)) 9812 (.named 897)
  (.node (.node (.node Tree.nil 9813 (.named 897) Tree.nil) 9814 (.struct 93) Tree.nil) 9815 (.named 861) (.node (.node Tree.nil 9816 (.untypedNil)
  Tree.nil) 9818 (.struct 93) Tree.nil))) 9819 (.untypedNil) (.node (.node (.node (.node Tree.nil 9820 (.struct 93) Tree.nil) 9821 (.struct 93)
  Tree.nil) 9822 (.slice (.struct 93)) (.node (.node Tree.nil 9825 (.string) Tree.nil) 9826 (.named 919) Tree.nil)) 9827 (.map (.string) (.named
  919)) (.node (.node (.node Tree.nil 9828 (.string) Tree.nil) 9829 (.named 861) Tree.nil) 9830 (.named 897) (.node (.node Tree.nil 9831 (.named
  897) Tree.nil) 9833 (.named 919) Tree.nil))))))))) 9835 (.string) (.node (.node (.node (.node (.node (.node (.node (.node (.node (.node Tree.nil
  9836 (.named 897) Tree.nil) 9837 (.named 897) (.node Tree.nil 9838 (.named 919) Tree.nil)) 9840 (.string) (.node (.node Tree.nil 9841 (.named 861)
  Tree.nil) 9842 (.untypedNil) Tree.nil)) 9844 (.named 919) (.node (.node (.node Tree.nil 9846 (.string) Tree.nil) 9847 (.untypedNil) Tree.nil) 9848
  (.named 919) (.node (.node Tree.nil 9850 (.string) Tree.nil) 9851 (.named 919) Tree.nil))) 9853 (.map (.string) (.named 919)) (.node (.node (.node
  (.node Tree.nil 9857 (.named 923) Tree.nil) 9858 (.named 861) (.node Tree.nil 9859 (.slice (.named 861)) Tree.nil)) 9862 (.named 924) (.node
  (.node Tree.nil 9863 (.named 923) Tree.nil) 9866 (.signature 15) Tree.nil)) 9868 (.signature 15) (.node (.node (.node Tree.nil 9870 (.named 861)
  Tree.nil) 9871 (.slice (.named 861)) Tree.nil) 9872 (.slice (.named 861)) (.node (.node Tree.nil 9875 (.named 861) Tree.nil) 9876 (.slice (.named
  861)) Tree.nil)))) 9877 (.untypedNil) (.node (.node (.node (.node (.node Tree.nil 9878 (.untypedNil) Tree.nil) 9879 (.untypedNil) (.node Tree.nil
  9880 (.slice (.named 861)) Tree.nil)) 9883 (.named 861) (.node (.node Tree.nil 9884 (.slice (.named 861)) Tree.nil) 9885 (.untypedNil) Tree.nil))
  9886 (.named 897) (.node (.node (.node Tree.nil 9887 (.named 897) Tree.nil) 9888 (.untypedNil) Tree.nil) 9889 (.slice (.named 861)) (.node (.node
  Tree.nil 9892 (.named 861) Tree.nil) 9893 (.slice (.named 861)) Tree.nil))) 9894 (.untypedNil) (.node (.node (.node (.node Tree.nil 9895 (.named
  897) Tree.nil) 9896 (.named 897) (.node Tree.nil 9897 (.untypedNil) Tree.nil)) 9898 (.untypedNil) (.node (.node Tree.nil 9899 (.named 897)
  Tree.nil) 9900 (.named 897) Tree.nil)) 9901 (.slice (.named 861)) (.node (.node (.node Tree.nil 9903 (.other 122) Tree.nil) 9904 (.other 122)
  Tree.nil) 9905 (.other 122) (.node (.node Tree.nil 9906 (.other 122) Tree.nil) 9911 (.named 861) Tree.nil))))) 9912 (.slice (.named 861)) (.node
  (.node (.node (.node (.node (.node Tree.nil 9913 (.other 8) Tree.nil) 9914 (.untypedNil) (.node Tree.nil 9916 (.other 8) Tree.nil)) 9917 (.named
  897) (.node (.node Tree.nil 9918 (.named 897) Tree.nil) 9920 (.other 8) Tree.nil)) 9921 (.untypedNil) (.node (.node (.node Tree.nil 9923 (.other
  8) Tree.nil) 9924 (.untypedNil) Tree.nil) 9926 (.other 8) (.node (.node Tree.nil 9927 (.named 897) Tree.nil) 9928 (.named 897) Tree.nil))) 9930
  (.other 8) (.node (.node (.node (.node Tree.nil 9931 (.named 897) Tree.nil) 9932 (.named 897) (.node Tree.nil 9934 (.slice (.named 861))
  Tree.nil)) 9937 (.named 923) (.node (.node Tree.nil 9938 (.named 923) Tree.nil) 9941 (.named 923) Tree.nil)) 9942 (.untypedNil) (.node (.node
  (.node Tree.nil 9943 (.named 923) Tree.nil) 9946 (.named 923) Tree.nil) 9947 (.named 897) (.node (.node Tree.nil 9948 (.named 897) Tree.nil) 9949
  (.untypedNil) Tree.nil)))) 9950 (.named 923) (.node (.node (.node (.node (.node Tree.nil 9953 (.named 923) Tree.nil) 9954 (.other 8) (.node
  Tree.nil 9955 (.named 897) Tree.nil)) 9956 (.named 897) (.node (.node Tree.nil 9958 (.other 8) Tree.nil) 9959 (.untypedNil) Tree.nil)) 9961
  (.named 923) (.node (.node (.node Tree.nil 9964 (.named 924) Tree.nil) 9965 (.named 924) Tree.nil) 9968 (.named 924) (.node (.node Tree.nil 9969
  (.untypedNil) Tree.nil) 9970 (.named 924) Tree.nil))) 9973 (.named 924) (.node (.node (.node (.node Tree.nil 9974 (.named 897) Tree.nil) 9975
  (.named 897) Tree.nil) 9976 (.untypedNil) (.node (.node Tree.nil 9977 (.named 924) Tree.nil) 9980 (.named 924) Tree.nil)) 9981 (.other 8) (.node
  (.node (.node Tree.nil 9982 (.named 897) Tree.nil) 9983 (.named 897) Tree.nil) 9985 (.other 8) (.node (.node Tree.nil 9986 (.untypedNil) Tree.nil)
  9988 (.named 924) Tree.nil)))))) 9991 (.named 861) (.node (.node (.node (.node (.node (.node (.node Tree.nil 9992 (.slice (.named 861)) Tree.nil)
  9993 (.slice (.slice (.named 861))) (.node Tree.nil 9994 (.slice (.slice (.slice (.named 861)))) Tree.nil)) 9995 (.untypedNil) (.node (.node
  Tree.nil 9996 (.named 897) Tree.nil) 9997 (.named 897) Tree.nil)) 9998 (.slice (.named 861)) (.node (.node (.node Tree.nil 9999 (.slice (.named
  861)) Tree.nil) 10000 (.untypedNil) Tree.nil) 10001 (.slice (.named 861)) (.node (.node Tree.nil 10002 (.slice (.slice (.named 861))) Tree.nil)
  10003 (.other 8) Tree.nil))) 10004 (.slice (.named 861)) (.node (.node (.node (.node Tree.nil 10006 (.other 8) Tree.nil) 10007 (.other 8) (.node
  Tree.nil 10008 (.named 897) Tree.nil)) 10009 (.named 897) (.node (.node Tree.nil 10011 (.slice (.named 861)) Tree.nil) 10013 (.named 897)
  Tree.nil)) 10014 (.named 897) (.node (.node (.node Tree.nil 10015 (.slice (.named 861)) Tree.nil) 10016 (.slice (.slice (.named 861))) Tree.nil)
  10017 (.slice (.slice (.slice (.named 861)))) (.node (.node Tree.nil 10020 (.named 924) Tree.nil) 10021 (.slice (.named 924)) Tree.nil)))) 10022
  (.untypedNil) (.node (.node (.node (.node (.node Tree.nil 10023 (.untypedNil) Tree.nil) 10024 (.named 897) (.node Tree.nil 10025 (.named 897)
  Tree.nil)) 10026 (.named 924) (.node (.node Tree.nil 10027 (.slice (.named 924)) Tree.nil) 10031 (.named 926) Tree.nil)) 10032 (.other 8) (.node
  (.node (.node Tree.nil 10033 (.named 861) Tree.nil) 10034 (.array (.named 861)) Tree.nil) 10037 (.named 927) (.node (.node Tree.nil 10038 (.named
  923) Tree.nil) 10041 (.signature 15) Tree.nil))) 10043 (.signature 15) (.node (.node (.node (.node Tree.nil 10045 (.other 8) Tree.nil) 10046
  (.named 861) Tree.nil) 10047 (.array (.named 861)) (.node (.node Tree.nil 10048 (.array (.named 861)) Tree.nil) 10051 (.other 8) Tree.nil)) 10052
  (.named 861) (.node (.node (.node Tree.nil 10053 (.array (.named 861)) Tree.nil) 10054 (.untypedNil) Tree.nil) 10055 (.untypedNil) (.node (.node
  Tree.nil 10056 (.untypedNil) Tree.nil) 10057 (.array (.named 861)) Tree.nil))))) 10060 (.other 8) (.node (.node (.node (.node (.node (.node
  Tree.nil 10061 (.named 861) Tree.nil) 10062 (.array (.named 861)) (.node Tree.nil 10063 (.untypedNil) Tree.nil)) 10064 (.named 897) (.node (.node
  Tree.nil 10065 (.named 897) Tree.nil) 10066 (.untypedNil) Tree.nil)) 10067 (.array (.named 861)) (.node (.node (.node Tree.nil 10071 (.named 861)
  Tree.nil) 10072 (.array (.named 861)) Tree.nil) 10073 (.untypedNil) (.node (.node Tree.nil 10074 (.named 897) Tree.nil) 10075 (.named 897)
  Tree.nil))) 10076 (.untypedNil) (.node (.node (.node (.node Tree.nil 10077 (.untypedNil) Tree.nil) 10078 (.named 897) (.node Tree.nil 10079
  (.named 897) Tree.nil)) 10080 (.array (.named 861)) (.node (.node Tree.nil 10082 (.other 122) Tree.nil) 10083 (.other 122) Tree.nil)) 10084
  (.other 122) (.node (.node (.node Tree.nil 10085 (.other 122) Tree.nil) 10091 (.named 861) Tree.nil) 10092 (.array (.named 861)) (.node (.node
  Tree.nil 10093 (.other 8) Tree.nil) 10094 (.untypedNil) Tree.nil)))) 10096 (.other 8) (.node (.node (.node (.node (.node Tree.nil 10097 (.named
  897) Tree.nil) 10098 (.named 897) (.node Tree.nil 10100 (.other 8) Tree.nil)) 10101 (.untypedNil) (.node (.node Tree.nil 10103 (.other 8)
  Tree.nil) 10104 (.untypedNil) Tree.nil)) 10106 (.other 8) (.node (.node (.node Tree.nil 10107 (.named 897) Tree.nil) 10108 (.named 897) Tree.nil)
  10110 (.other 8) (.node (.node Tree.nil 10111 (.named 897) Tree.nil) 10112 (.named 897) Tree.nil))) 10114 (.array (.named 861)) (.node (.node
  (.node (.node Tree.nil 10117 (.named 926) Tree.nil) 10118 (.named 926) Tree.nil) 10121 (.named 926) (.node (.node Tree.nil 10122 (.untypedNil)
  Tree.nil) 10123 (.named 926) Tree.nil)) 10126 (.named 926) (.node (.node (.node Tree.nil 10127 (.named 897) Tree.nil) 10128 (.named 897) Tree.nil)
  10129 (.untypedNil) (.node (.node Tree.nil 10130 (.named 926) Tree.nil) 10133 (.named 926) Tree.nil))))))) 10134 (.other 8) (.node (.node (.node
  (.node (.node (.node (.node (.node Tree.nil 10135 (.named 897) Tree.nil) 10136 (.named 897) (.node Tree.nil 10138 (.other 8) Tree.nil)) 10139
  (.untypedNil) (.node (.node Tree.nil 10141 (.named 926) Tree.nil) 10144 (.named 927) Tree.nil)) 10145 (.named 927) (.node (.node (.node Tree.nil
  10148 (.named 927) Tree.nil) 10149 (.untypedNil) Tree.nil) 10150 (.named 927) (.node (.node Tree.nil 10153 (.named 927) Tree.nil) 10154 (.named
  897) Tree.nil))) 10155 (.named 897) (.node (.node (.node (.node Tree.nil 10156 (.untypedNil) Tree.nil) 10157 (.named 927) (.node Tree.nil 10160
  (.named 927) Tree.nil)) 10161 (.other 8) (.node (.node Tree.nil 10162 (.named 897) Tree.nil) 10163 (.named 897) Tree.nil)) 10165 (.other 8) (.node
  (.node (.node Tree.nil 10166 (.untypedNil) Tree.nil) 10168 (.named 927) Tree.nil) 10172 (.other 8) (.node (.node Tree.nil 10173 (.other 8)
  Tree.nil) 10174 (.named 861) Tree.nil)))) 10175 (.array (.named 861)) (.node (.node (.node (.node (.node Tree.nil 10176 (.array (.array (.named
  861))) Tree.nil) 10177 (.array (.array (.array (.named 861)))) (.node Tree.nil 10178 (.untypedNil) Tree.nil)) 10179 (.named 897) (.node (.node
  Tree.nil 10180 (.named 897) Tree.nil) 10181 (.array (.named 861)) Tree.nil)) 10182 (.array (.named 861)) (.node (.node (.node Tree.nil 10183
  (.untypedNil) Tree.nil) 10184 (.array (.named 861)) Tree.nil) 10185 (.array (.array (.named 861))) (.node (.node Tree.nil 10186 (.other 8)
  Tree.nil) 10187 (.array (.named 861)) Tree.nil))) 10189 (.other 8) (.node (.node (.node (.node Tree.nil 10190 (.other 8) Tree.nil) 10191 (.named
  897) (.node Tree.nil 10192 (.named 897) Tree.nil)) 10194 (.array (.named 861)) (.node (.node Tree.nil 10196 (.named 897) Tree.nil) 10197 (.named
  897) Tree.nil)) 10198 (.array (.named 861)) (.node (.node (.node Tree.nil 10199 (.array (.array (.named 861))) Tree.nil) 10200 (.array (.array
  (.array (.named 861)))) Tree.nil) 10203 (.named 927) (.node (.node Tree.nil 10204 (.slice (.named 927)) Tree.nil) 10205 (.untypedNil)
  Tree.nil))))) 10206 (.named 897) (.node (.node (.node (.node (.node (.node Tree.nil 10207 (.named 897) Tree.nil) 10208 (.named 927) (.node
  Tree.nil 10209 (.slice (.named 927)) Tree.nil)) 10213 (.named 929) (.node (.node Tree.nil 10214 (.other 8) Tree.nil) 10215 (.named 861) Tree.nil))
  10216 (.map (.other 8) (.named 861)) (.node (.node (.node Tree.nil 10219 (.named 930) Tree.nil) 10220 (.named 923) Tree.nil) 10223 (.signature 15)
  (.node (.node Tree.nil 10225 (.signature 15) Tree.nil) 10227 (.string) Tree.nil))) 10228 (.named 861) (.node (.node (.node (.node Tree.nil 10229
  (.map (.string) (.named 861)) Tree.nil) 10230 (.map (.string) (.named 861)) (.node Tree.nil 10233 (.string) Tree.nil)) 10234 (.named 861) (.node
  (.node Tree.nil 10235 (.map (.string) (.named 861)) Tree.nil) 10236 (.string) Tree.nil)) 10237 (.untypedNil) (.node (.node (.node Tree.nil 10239
  (.string) Tree.nil) 10240 (.untypedNil) Tree.nil) 10242 (.map (.string) (.named 861)) (.node (.node Tree.nil 10245 (.string) Tree.nil) 10246
  (.named 861) Tree.nil)))) 10247 (.map (.string) (.named 861)) (.node (.node (.node (.node (.node Tree.nil 10248 (.string) Tree.nil) 10249
  (.untypedNil) (.node Tree.nil 10251 (.string) Tree.nil)) 10252 (.named 897) (.node (.node Tree.nil 10253 (.named 897) Tree.nil) 10255 (.string)
  Tree.nil)) 10256 (.untypedNil) (.node (.node (.node Tree.nil 10258 (.map (.string) (.named 861)) Tree.nil) 10260 (.other 122) Tree.nil) 10261
  (.other 122) (.node (.node Tree.nil 10262 (.other 122) Tree.nil) 10263 (.other 122) Tree.nil))) 10268 (.other 8) (.node (.node (.node (.node
  Tree.nil 10269 (.named 861) Tree.nil) 10270 (.map (.other 8) (.named 861)) Tree.nil) 10271 (.other 8) (.node (.node Tree.nil 10272 (.untypedNil)
  Tree.nil) 10274 (.other 8) Tree.nil)) 10275 (.named 897) (.node (.node (.node Tree.nil 10276 (.named 897) Tree.nil) 10278 (.other 8) Tree.nil)
  10279 (.untypedNil) (.node (.node Tree.nil 10281 (.other 8) Tree.nil) 10282 (.untypedNil) Tree.nil)))))) 10284 (.other 8) (.node (.node (.node
  (.node (.node (.node (.node Tree.nil 10285 (.named 897) Tree.nil) 10286 (.named 897) (.node Tree.nil 10288 (.other 8) Tree.nil)) 10289 (.named
  897) (.node (.node Tree.nil 10290 (.named 897) Tree.nil) 10292 (.map (.other 8) (.named 861)) Tree.nil)) 10295 (.named 929) (.node (.node (.node
  Tree.nil 10296 (.named 929) Tree.nil) 10299 (.named 929) Tree.nil) 10300 (.other 8) (.node (.node Tree.nil 10301 (.untypedNil) Tree.nil) 10303
  (.named 929) Tree.nil))) 10306 (.named 929) (.node (.node (.node (.node Tree.nil 10307 (.other 8) Tree.nil) 10308 (.named 897) (.node Tree.nil
  10309 (.named 897) Tree.nil)) 10311 (.other 8) (.node (.node Tree.nil 10312 (.untypedNil) Tree.nil) 10314 (.named 929) Tree.nil)) 10317 (.named
  930) (.node (.node (.node Tree.nil 10318 (.named 930) Tree.nil) 10321 (.named 930) Tree.nil) 10322 (.other 8) (.node (.node Tree.nil 10323
  (.untypedNil) Tree.nil) 10325 (.named 930) Tree.nil)))) 10328 (.named 930) (.node (.node (.node (.node (.node Tree.nil 10329 (.other 8) Tree.nil)
  10330 (.named 897) (.node Tree.nil 10331 (.named 897) Tree.nil)) 10333 (.other 8) (.node (.node Tree.nil 10334 (.untypedNil) Tree.nil) 10336
  (.named 930) Tree.nil)) 10339 (.string) (.node (.node (.node Tree.nil 10340 (.other 8) Tree.nil) 10341 (.other 8) Tree.nil) 10342 (.named 861)
  (.node (.node Tree.nil 10343 (.map (.other 8) (.named 861)) Tree.nil) 10344 (.map (.other 8) (.map (.other 8) (.named 861))) Tree.nil))) 10345
  (.map (.string) (.map (.other 8) (.map (.other 8) (.named 861)))) (.node (.node (.node (.node Tree.nil 10346 (.string) Tree.nil) 10347 (.other 8)
  Tree.nil) 10348 (.other 8) (.node (.node Tree.nil 10349 (.untypedNil) Tree.nil) 10351 (.other 8) Tree.nil)) 10352 (.named 897) (.node (.node
  (.node Tree.nil 10353 (.named 897) Tree.nil) 10355 (.map (.other 8) (.named 861)) Tree.nil) 10357 (.other 8) (.node (.node Tree.nil 10358 (.map
  (.other 8) (.named 861)) Tree.nil) 10360 (.other 8) Tree.nil))))) 10361 (.other 8) (.node (.node (.node (.node (.node (.node Tree.nil 10362
  (.untypedNil) Tree.nil) 10364 (.map (.other 8) (.named 861)) (.node Tree.nil 10366 (.map (.other 8) (.map (.other 8) (.named 861))) Tree.nil))
  10368 (.string) (.node (.node Tree.nil 10369 (.other 8) Tree.nil) 10370 (.map (.other 8) (.named 861)) Tree.nil)) 10372 (.other 8) (.node (.node
  (.node Tree.nil 10373 (.other 8) Tree.nil) 10374 (.named 897) Tree.nil) 10375 (.named 897) (.node (.node Tree.nil 10377 (.map (.other 8) (.named
  861)) Tree.nil) 10379 (.map (.other 8) (.map (.other 8) (.named 861))) Tree.nil))) 10381 (.map (.string) (.map (.other 8) (.map (.other 8) (.named
  861)))) (.node (.node (.node (.node Tree.nil 10384 (.string) Tree.nil) 10385 (.named 930) (.node Tree.nil 10386 (.map (.string) (.named 930))
  Tree.nil)) 10387 (.string) (.node (.node Tree.nil 10388 (.other 8) Tree.nil) 10389 (.untypedNil) Tree.nil)) 10391 (.other 8) (.node (.node (.node
  Tree.nil 10392 (.named 897) Tree.nil) 10393 (.named 897) Tree.nil) 10395 (.named 930) (.node (.node Tree.nil 10397 (.map (.string) (.named 930))
  Tree.nil) 10400 (.named 861) Tree.nil)))) 10401 (.other 8) (.node (.node (.node (.node (.node Tree.nil 10402 (.map (.named 861) (.other 8))
  Tree.nil) 10403 (.map (.named 861) (.other 8)) (.node Tree.nil 10406 (.named 861) Tree.nil)) 10407 (.other 8) (.node (.node Tree.nil 10408 (.map
  (.named 861) (.other 8)) Tree.nil) 10409 (.named 897) Tree.nil)) 10410 (.named 897) (.node (.node (.node Tree.nil 10411 (.other 8) Tree.nil) 10413
  (.map (.named 861) (.other 8)) Tree.nil) 10416 (.named 861) (.node (.node Tree.nil 10417 (.other 8) Tree.nil) 10418 (.map (.named 861) (.other 8))
  Tree.nil))) 10419 (.untypedNil) (.node (.node (.node (.node Tree.nil 10420 (.other 8) Tree.nil) 10422 (.named 897) Tree.nil) 10423 (.named 897)
  (.node (.node Tree.nil 10424 (.other 8) Tree.nil) 10426 (.untypedNil) Tree.nil)) 10427 (.other 8) (.node (.node (.node Tree.nil 10429 (.map
  (.named 861) (.other 8)) Tree.nil) 10432 (.named 861) Tree.nil) 10433 (.named 861) (.node (.node Tree.nil 10434 (.map (.named 861) (.named 861))
  Tree.nil) 10435 (.untypedNil) Tree.nil)))))))) 10436 (.named 897) (.node (.node (.node (.node (.node (.node (.node (.node (.node Tree.nil 10437
  (.named 897) Tree.nil) 10439 (.named 897) (.node Tree.nil 10440 (.named 897) Tree.nil)) 10441 (.untypedNil) (.node (.node Tree.nil 10443 (.named
  897) Tree.nil) 10444 (.named 897) Tree.nil)) 10445 (.named 897) (.node (.node (.node Tree.nil 10446 (.named 897) Tree.nil) 10448 (.map (.named
  861) (.named 861)) Tree.nil) 10451 (.string) (.node (.node Tree.nil 10452 (.named 861) Tree.nil) 10453 (.slice (.named 861)) Tree.nil))) 10454
  (.map (.string) (.slice (.named 861))) (.node (.node (.node (.node Tree.nil 10455 (.string) Tree.nil) 10456 (.named 897) (.node Tree.nil 10457
  (.named 897) Tree.nil)) 10458 (.untypedNil) (.node (.node Tree.nil 10459 (.slice (.named 861)) Tree.nil) 10461 (.map (.string) (.slice (.named
  861))) Tree.nil)) 10465 (.signature 123) (.node (.node (.node Tree.nil 10466 (.slice (.named 897)) Tree.nil) 10467 (.named 897) Tree.nil) 10468
  (.slice (.named 897)) (.node (.node Tree.nil 10469 (.map (.named 897) (.struct 2)) Tree.nil) 10470 (.named 897) Tree.nil)))) 10472 (.struct 2)
  (.node (.node (.node (.node (.node Tree.nil 10473 (.map (.named 897) (.struct 2)) Tree.nil) 10474 (.map (.string) (.named 897)) (.node Tree.nil
  10475 (.string) Tree.nil)) 10476 (.named 897) (.node (.node Tree.nil 10477 (.map (.string) (.named 897)) Tree.nil) 10478 (.map (.named 897)
  (.named 897)) Tree.nil)) 10479 (.named 897) (.node (.node (.node Tree.nil 10480 (.named 897) Tree.nil) 10481 (.map (.named 897) (.named 897))
  Tree.nil) 10482 (.array (.named 897)) (.node (.node Tree.nil 10483 (.other 8) Tree.nil) 10484 (.named 897) Tree.nil))) 10485 (.array (.named 897))
  (.node (.node (.node (.node Tree.nil 10486 (.pointer (.array (.named 897))) Tree.nil) 10487 (.other 8) (.node Tree.nil 10488 (.named 897)
  Tree.nil)) 10489 (.array (.named 897)) (.node (.node Tree.nil 10490 (.pointer (.array (.named 897))) Tree.nil) 10491 (.chan (.named 897))
  Tree.nil)) 10492 (.named 897) (.node (.node (.node Tree.nil 10493 (.chan (.named 897)) Tree.nil) 10502 (.signature 123) Tree.nil) 10503 (.named
  861) (.node (.node Tree.nil 10504 (.named 861) Tree.nil) 10509 (.named 861) Tree.nil))))) 10510 (.slice (.named 897)) (.node (.node (.node (.node
  (.node (.node Tree.nil 10513 (.named 861) Tree.nil) 10517 (.other 8) (.node Tree.nil 10518 (.slice (.named 897)) Tree.nil)) 10521 (.other 8)
  (.node (.node Tree.nil 10526 (.named 861) Tree.nil) 10527 (.array (.named 897)) Tree.nil)) 10530 (.named 861) (.node (.node (.node Tree.nil 10534
  (.other 8) Tree.nil) 10535 (.array (.named 897)) Tree.nil) 10538 (.other 8) (.node (.node Tree.nil 10543 (.named 861) Tree.nil) 10544 (.pointer
  (.array (.named 897))) Tree.nil))) 10547 (.named 861) (.node (.node (.node (.node Tree.nil 10551 (.other 8) Tree.nil) 10552 (.pointer (.array
  (.named 897))) (.node Tree.nil 10555 (.other 8) Tree.nil)) 10559 (.named 861) (.node (.node Tree.nil 10561 (.map (.named 897) (.struct 2))
  Tree.nil) 10564 (.named 861) Tree.nil)) 10568 (.named 861) (.node (.node (.node Tree.nil 10569 (.map (.named 897) (.struct 2)) Tree.nil) 10572
  (.named 861) Tree.nil) 10577 (.named 861) (.node (.node Tree.nil 10578 (.map (.string) (.named 897)) Tree.nil) 10581 (.named 861) Tree.nil))))
  10585 (.named 861) (.node (.node (.node (.node (.node Tree.nil 10586 (.named 861) Tree.nil) 10590 (.named 861) (.node Tree.nil 10591 (.named 861)
  Tree.nil)) 10592 (.map (.named 897) (.named 897)) (.node (.node Tree.nil 10596 (.named 861) Tree.nil) 10597 (.named 861) Tree.nil)) 10601 (.named
  861) (.node (.node (.node Tree.nil 10602 (.named 861) Tree.nil) 10603 (.map (.named 897) (.named 897)) Tree.nil) 10606 (.named 861) (.node (.node
  Tree.nil 10610 (.named 861) Tree.nil) 10611 (.map (.named 897) (.named 897)) Tree.nil))) 10614 (.named 861) (.node (.node (.node (.node Tree.nil
  10618 (.named 861) Tree.nil) 10619 (.chan (.named 897)) Tree.nil) 10622 (.named 861) (.node (.node Tree.nil 10628 (.named 933) Tree.nil) 10629
  (.named 897) Tree.nil)) 10630 (.slice (.named 897)) (.node (.node (.node Tree.nil 10632 (.named 934) Tree.nil) 10633 (.named 897) Tree.nil) 10635
  (.struct 2) (.node (.node Tree.nil 10636 (.map (.named 897) (.struct 2)) Tree.nil) 10638 (.named 935) Tree.nil)))))) 10639 (.string) (.node (.node
  (.node (.node (.node (.node (.node Tree.nil 10640 (.named 897) Tree.nil) 10641 (.map (.string) (.named 897)) (.node Tree.nil 10643 (.named 936)
  Tree.nil)) 10644 (.named 897) (.node (.node Tree.nil 10645 (.named 897) Tree.nil) 10646 (.map (.named 897) (.named 897)) Tree.nil)) 10648 (.named
  937) (.node (.node (.node Tree.nil 10649 (.other 8) Tree.nil) 10650 (.named 897) Tree.nil) 10651 (.array (.named 897)) (.node (.node Tree.nil
  10653 (.named 938) Tree.nil) 10654 (.other 8) Tree.nil))) 10655 (.named 897) (.node (.node (.node (.node Tree.nil 10656 (.array (.named 897))
  Tree.nil) 10657 (.pointer (.array (.named 897))) (.node Tree.nil 10659 (.named 939) Tree.nil)) 10660 (.named 897) (.node (.node Tree.nil 10661
  (.chan (.named 897)) Tree.nil) 10664 (.signature 124) Tree.nil)) 10665 (.named 933) (.node (.node (.node Tree.nil 10666 (.named 933) Tree.nil)
  10667 (.named 934) Tree.nil) 10668 (.named 934) (.node (.node Tree.nil 10669 (.named 935) Tree.nil) 10670 (.named 935) Tree.nil)))) 10671 (.named
  936) (.node (.node (.node (.node (.node Tree.nil 10672 (.named 936) Tree.nil) 10673 (.named 937) (.node Tree.nil 10674 (.named 937) Tree.nil))
  10675 (.named 938) (.node (.node Tree.nil 10676 (.named 938) Tree.nil) 10677 (.pointer (.named 937)) Tree.nil)) 10678 (.named 937) (.node (.node
  (.node Tree.nil 10679 (.pointer (.named 937)) Tree.nil) 10680 (.named 939) Tree.nil) 10681 (.named 939) (.node (.node Tree.nil 10691 (.signature
  124) Tree.nil) 10692 (.named 861) Tree.nil))) 10693 (.named 861) (.node (.node (.node (.node Tree.nil 10698 (.named 861) Tree.nil) 10699 (.named
  933) Tree.nil) 10702 (.named 861) (.node (.node Tree.nil 10706 (.other 8) Tree.nil) 10707 (.named 933) Tree.nil)) 10710 (.other 8) (.node (.node
  (.node Tree.nil 10715 (.named 861) Tree.nil) 10716 (.named 937) Tree.nil) 10719 (.named 861) (.node (.node Tree.nil 10723 (.other 8) Tree.nil)
  10724 (.named 937) Tree.nil))))) 10727 (.other 8) (.node (.node (.node (.node (.node (.node Tree.nil 10732 (.named 861) Tree.nil) 10733 (.named
  938) (.node Tree.nil 10736 (.named 861) Tree.nil)) 10740 (.other 8) (.node (.node Tree.nil 10741 (.named 938) Tree.nil) 10744 (.other 8)
  Tree.nil)) 10749 (.named 861) (.node (.node (.node Tree.nil 10750 (.pointer (.named 937)) Tree.nil) 10753 (.named 861) Tree.nil) 10757 (.other 8)
  (.node (.node Tree.nil 10758 (.pointer (.named 937)) Tree.nil) 10761 (.other 8) Tree.nil))) 10765 (.named 861) (.node (.node (.node (.node
  Tree.nil 10767 (.named 934) Tree.nil) 10770 (.named 861) (.node Tree.nil 10774 (.named 861) Tree.nil)) 10775 (.named 934) (.node (.node Tree.nil
  10778 (.named 861) Tree.nil) 10783 (.named 861) Tree.nil)) 10784 (.named 935) (.node (.node (.node Tree.nil 10787 (.named 861) Tree.nil) 10791
  (.named 861) Tree.nil) 10792 (.named 861) (.node (.node Tree.nil 10796 (.named 861) Tree.nil) 10797 (.named 861) Tree.nil)))) 10798 (.named 936)
  (.node (.node (.node (.node (.node Tree.nil 10802 (.named 861) Tree.nil) 10803 (.named 861) (.node Tree.nil 10807 (.named 861) Tree.nil)) 10808
  (.named 861) (.node (.node Tree.nil 10809 (.named 936) Tree.nil) 10812 (.named 861) Tree.nil)) 10816 (.named 861) (.node (.node (.node Tree.nil
  10817 (.named 936) Tree.nil) 10820 (.named 861) Tree.nil) 10824 (.named 861) (.node (.node Tree.nil 10825 (.named 939) Tree.nil) 10828 (.named
  861) Tree.nil))) 10834 (.named 941) (.node (.node (.node (.node Tree.nil 10835 (.named 861) Tree.nil) 10836 (.chan (.named 861)) Tree.nil) 10839
  (.signature 125) (.node (.node Tree.nil 10840 (.chan (.named 897)) Tree.nil) 10841 (.named 897) Tree.nil)) 10842 (.chan (.named 897)) (.node
  (.node (.node Tree.nil 10843 (.chan (.named 861)) Tree.nil) 10844 (.named 861) Tree.nil) 10845 (.chan (.named 861)) (.node (.node Tree.nil 10846
  (.named 941) Tree.nil) 10847 (.named 941) Tree.nil))))))) 10852 (.signature 125) (.node (.node (.node (.node (.node (.node (.node (.node Tree.nil
  10853 (.named 861) Tree.nil) 10854 (.named 861) (.node Tree.nil 10855 (.chan (.named 897)) Tree.nil)) 10856 (.named 897) (.node (.node Tree.nil
  10860 (.named 897) Tree.nil) 10861 (.chan (.named 897)) Tree.nil)) 10862 (.named 897) (.node (.node (.node Tree.nil 10866 (.chan (.named 897))
  Tree.nil) 10867 (.named 897) Tree.nil) 10868 (.named 897) (.node (.node Tree.nil 10870 (.chan (.named 897)) Tree.nil) 10871 (.named 897)
  Tree.nil))) 10873 (.chan (.named 861)) (.node (.node (.node (.node Tree.nil 10874 (.named 897) Tree.nil) 10875 (.named 897) (.node Tree.nil 10877
  (.chan (.named 861)) Tree.nil)) 10878 (.chan (.named 897)) (.node (.node Tree.nil 10879 (.named 897) Tree.nil) 10881 (.chan (.named 861))
  Tree.nil)) 10882 (.named 861) (.node (.node (.node Tree.nil 10884 (.named 941) Tree.nil) 10885 (.named 897) Tree.nil) 10886 (.named 897) (.node
  (.node Tree.nil 10888 (.named 941) Tree.nil) 10889 (.chan (.named 897)) Tree.nil)))) 10890 (.named 897) (.node (.node (.node (.node (.node
  Tree.nil 10892 (.named 861) Tree.nil) 10893 (.chan (.named 897)) (.node Tree.nil 10894 (.named 897) Tree.nil)) 10897 (.named 861) (.node (.node
  Tree.nil 10900 (.named 897) Tree.nil) 10901 (.chan (.named 897)) Tree.nil)) 10902 (.named 897) (.node (.node (.node Tree.nil 10905 (.named 861)
  Tree.nil) 10908 (.chan (.named 897)) Tree.nil) 10909 (.named 897) (.node (.node Tree.nil 10910 (.named 897) Tree.nil) 10913 (.named 861)
  Tree.nil))) 10916 (.chan (.named 897)) (.node (.node (.node (.node Tree.nil 10917 (.named 897) Tree.nil) 10920 (.named 861) Tree.nil) 10923 (.chan
  (.named 861)) (.node (.node Tree.nil 10924 (.named 897) Tree.nil) 10925 (.named 897) Tree.nil)) 10928 (.named 861) (.node (.node (.node Tree.nil
  10931 (.chan (.named 861)) Tree.nil) 10932 (.chan (.named 897)) Tree.nil) 10933 (.named 897) (.node (.node Tree.nil 10936 (.named 861) Tree.nil)
  10939 (.named 941) Tree.nil))))) 10940 (.named 897) (.node (.node (.node (.node (.node (.node Tree.nil 10941 (.named 897) Tree.nil) 10944 (.named
  861) (.node Tree.nil 10947 (.named 941) Tree.nil)) 10948 (.chan (.named 897)) (.node (.node Tree.nil 10949 (.named 897) Tree.nil) 10952 (.named
  861) Tree.nil)) 10955 (.chan (.named 861)) (.node (.node (.node Tree.nil 10956 (.named 861) Tree.nil) 10959 (.named 861) Tree.nil) 10966 (.named
  943) (.node (.node Tree.nil 10967 (.signature 6) Tree.nil) 10969 (.named 19) Tree.nil))) 10972 (.signature 6) (.node (.node (.node (.node Tree.nil
  10974 (.signature 6) Tree.nil) 10976 (.named 19) (.node Tree.nil 10979 (.signature 6) Tree.nil)) 10981 (.signature 6) (.node (.node Tree.nil 10983
  (.named 19) Tree.nil) 10986 (.signature 6) Tree.nil)) 10989 (.interface 95) (.node (.node (.node Tree.nil 10991 (.named 944) Tree.nil) 10993
  (.struct 2) Tree.nil) 10996 (.named 944) (.node (.node Tree.nil 10999 (.signature 6) Tree.nil) 11001 (.named 19) Tree.nil)))) 11004 (.signature 6)
  (.node (.node (.node (.node (.node Tree.nil 11005 (.named 888) Tree.nil) 11006 (.string) (.node Tree.nil 11007 (.named 888) Tree.nil)) 11008
  (.pointer (.named 888)) (.node (.node Tree.nil 11012 (.named 944) Tree.nil) 11015 (.signature 6) Tree.nil)) 11017 (.named 19) (.node (.node (.node
  Tree.nil 11020 (.signature 6) Tree.nil) 11021 (.other 10) Tree.nil) 11022 (.named 888) (.node (.node Tree.nil 11023 (.string) Tree.nil) 11024
  (.named 888) Tree.nil))) 11025 (.pointer (.named 888)) (.node (.node (.node (.node Tree.nil 11028 (.other 10) Tree.nil) 11029 (.named 888)
  Tree.nil) 11030 (.string) (.node (.node Tree.nil 11031 (.named 888) Tree.nil) 11032 (.pointer (.named 888)) Tree.nil)) 11037 (.named 888) (.node
  (.node (.node Tree.nil 11038 (.string) Tree.nil) 11039 (.named 888) Tree.nil) 11040 (.pointer (.named 888)) (.node (.node Tree.nil 11044 (.named
  944) Tree.nil) 11047 (.signature 6) Tree.nil)))))) 11049 (.named 19) (.node (.node (.node (.node (.node (.node (.node Tree.nil 11052 (.signature
  6) Tree.nil) 11053 (.named 888) (.node Tree.nil 11054 (.string) Tree.nil)) 11055 (.named 888) (.node (.node Tree.nil 11056 (.pointer (.named 888))
  Tree.nil) 11060 (.signature 15) Tree.nil)) 11062 (.signature 15) (.node (.node (.node Tree.nil 11063 (.named 943) Tree.nil) 11064 (.named 943)
  Tree.nil) 11065 (.named 944) (.node (.node Tree.nil 11066 (.named 944) Tree.nil) 11071 (.named 943) Tree.nil))) 11075 (.named 949) (.node (.node
  (.node (.node Tree.nil 11076 (.signature 6) Tree.nil) 11078 (.named 19) (.node Tree.nil 11081 (.signature 6) Tree.nil)) 11084 (.interface 91)
  (.node (.node Tree.nil 11086 (.named 950) Tree.nil) 11087 (.signature 6) Tree.nil)) 11089 (.named 19) (.node (.node (.node Tree.nil 11092
  (.signature 6) Tree.nil) 11095 (.interface 97) Tree.nil) 11097 (.named 951) (.node (.node Tree.nil 11098 (.signature 6) Tree.nil) 11100 (.named
  19) Tree.nil)))) 11103 (.signature 6) (.node (.node (.node (.node (.node Tree.nil 11106 (.interface 87) Tree.nil) 11108 (.named 952) (.node
  Tree.nil 11109 (.string) Tree.nil)) 11110 (.string) (.node (.node Tree.nil 11112 (.named 950) Tree.nil) 11113 (.named 950) Tree.nil)) 11116
  (.struct 89) (.node (.node (.node Tree.nil 11118 (.named 953) Tree.nil) 11120 (.struct 2) Tree.nil) 11122 (.named 954) (.node (.node Tree.nil
  11124 (.struct 2) Tree.nil) 11127 (.named 952) Tree.nil))) 11130 (.signature 6) (.node (.node (.node (.node Tree.nil 11132 (.named 19) Tree.nil)
  11135 (.signature 6) Tree.nil) 11136 (.named 888) (.node (.node Tree.nil 11137 (.string) Tree.nil) 11138 (.named 888) Tree.nil)) 11139 (.pointer
  (.named 888)) (.node (.node (.node Tree.nil 11143 (.named 953) Tree.nil) 11146 (.signature 6) Tree.nil) 11148 (.named 19) (.node (.node Tree.nil
  11151 (.signature 6) Tree.nil) 11152 (.named 888) Tree.nil))))) 11153 (.string) (.node (.node (.node (.node (.node (.node Tree.nil 11154 (.named
  888) Tree.nil) 11155 (.pointer (.named 888)) (.node Tree.nil 11159 (.named 954) Tree.nil)) 11162 (.signature 6) (.node (.node Tree.nil 11164
  (.named 19) Tree.nil) 11167 (.signature 6) Tree.nil)) 11168 (.other 10) (.node (.node (.node Tree.nil 11169 (.named 888) Tree.nil) 11170 (.string)
  Tree.nil) 11171 (.named 888) (.node (.node Tree.nil 11172 (.pointer (.named 888)) Tree.nil) 11175 (.other 10) Tree.nil))) 11176 (.named 888)
  (.node (.node (.node (.node Tree.nil 11177 (.string) Tree.nil) 11178 (.named 888) (.node Tree.nil 11179 (.pointer (.named 888)) Tree.nil)) 11182
  (.named 888) (.node (.node Tree.nil 11183 (.string) Tree.nil) 11184 (.named 888) Tree.nil)) 11185 (.pointer (.named 888)) (.node (.node (.node
  Tree.nil 11192 (.signature 126) Tree.nil) 11193 (.other 8) Tree.nil) 11194 (.other 8) (.node (.node Tree.nil 11195 (.other 8) Tree.nil) 11196
  (.named 951) Tree.nil)))) 11197 (.named 951) (.node (.node (.node (.node (.node Tree.nil 11201 (.named 953) Tree.nil) 11204 (.signature 126)
  (.node Tree.nil 11205 (.named 953) Tree.nil)) 11206 (.named 953) (.node (.node Tree.nil 11210 (.signature 127) Tree.nil) 11211 (.named 954)
  Tree.nil)) 11212 (.named 954) (.node (.node (.node Tree.nil 11215 (.signature 127) Tree.nil) 11216 (.named 949) Tree.nil) 11217 (.named 949)
  (.node (.node Tree.nil 11218 (.named 952) Tree.nil) 11219 (.string) Tree.nil))) 11220 (.signature 126) (.node (.node (.node (.node Tree.nil 11221
  (.other 8) Tree.nil) 11222 (.other 8) Tree.nil) 11223 (.named 954) (.node (.node Tree.nil 11224 (.named 953) Tree.nil) 11225 (.named 952)
  Tree.nil)) 11230 (.named 949) (.node (.node (.node Tree.nil 11234 (.signature 128) Tree.nil) 11236 (.named 864) Tree.nil) 11239 (.signature 128)
  (.node (.node Tree.nil 11240 (.named 897) Tree.nil) 11241 (.named 897) Tree.nil))))))))))
/-- Constant values of expressions. -/
def valueTable : Tree Const := (.node (.node (.node (.node (.node (.node (.node (.node Tree.nil 8372 (.other) Tree.nil) 8400 (.other) Tree.nil) 8447
  (.str s102) (.node Tree.nil 8472 (.str s103) Tree.nil)) 8505 (.str s102) (.node (.node (.node Tree.nil 8533 (.other) Tree.nil) 8536 (.str s102)
  Tree.nil) 8543 (.str s104) (.node Tree.nil 8621 (.str s105) Tree.nil))) 8983 (.str s106) (.node (.node (.node (.node Tree.nil 9010 (.other)
  Tree.nil) 9011 (.other) Tree.nil) 9029 (.other) (.node Tree.nil 9030 (.other) Tree.nil)) 9075 (.other) (.node (.node (.node Tree.nil 9076 (.other)
  Tree.nil) 9101 (.other) Tree.nil) 9224 (.other) (.node Tree.nil 9227 (.other) Tree.nil)))) 9237 (.other) (.node (.node (.node (.node (.node
  Tree.nil 9250 (.other) Tree.nil) 9263 (.other) Tree.nil) 9319 (.other) (.node Tree.nil 9320 (.other) Tree.nil)) 9325 (.other) (.node (.node (.node
  Tree.nil 9326 (.other) Tree.nil) 9331 (.other) Tree.nil) 9332 (.other) (.node Tree.nil 9338 (.other) Tree.nil))) 9339 (.other) (.node (.node
  (.node (.node Tree.nil 9346 (.other) Tree.nil) 9347 (.other) Tree.nil) 9354 (.other) (.node Tree.nil 9363 (.other) Tree.nil)) 9458 (.other) (.node
  (.node Tree.nil 9641 (.other) Tree.nil) 9642 (.other) (.node Tree.nil 9651 (.other) Tree.nil))))) 9652 (.other) (.node (.node (.node (.node (.node
  (.node Tree.nil 9661 (.other) Tree.nil) 9662 (.other) Tree.nil) 9677 (.other) (.node Tree.nil 9678 (.other) Tree.nil)) 9685 (.other) (.node (.node
  (.node Tree.nil 9686 (.other) Tree.nil) 9695 (.other) Tree.nil) 9698 (.other) (.node Tree.nil 9712 (.other) Tree.nil))) 9726 (.other) (.node
  (.node (.node (.node Tree.nil 9828 (.str s5) Tree.nil) 9835 (.str s6) Tree.nil) 9840 (.str s82) (.node Tree.nil 9846 (.str s107) Tree.nil)) 9850
  (.str s24) (.node (.node Tree.nil 9904 (.other) Tree.nil) 9905 (.other) (.node Tree.nil 9906 (.other) Tree.nil)))) 9913 (.other) (.node (.node
  (.node (.node (.node Tree.nil 9916 (.other) Tree.nil) 9920 (.other) Tree.nil) 9923 (.other) (.node Tree.nil 9926 (.other) Tree.nil)) 9930 (.other)
  (.node (.node (.node Tree.nil 9954 (.other) Tree.nil) 9958 (.other) Tree.nil) 9981 (.other) (.node Tree.nil 9985 (.other) Tree.nil))) 10003
  (.other) (.node (.node (.node (.node Tree.nil 10006 (.other) Tree.nil) 10007 (.other) Tree.nil) 10032 (.other) (.node Tree.nil 10045 (.other)
  Tree.nil)) 10051 (.other) (.node (.node Tree.nil 10060 (.other) Tree.nil) 10083 (.other) (.node Tree.nil 10084 (.other) Tree.nil)))))) 10085
  (.other) (.node (.node (.node (.node (.node (.node (.node Tree.nil 10093 (.other) Tree.nil) 10096 (.other) Tree.nil) 10100 (.other) (.node
  Tree.nil 10103 (.other) Tree.nil)) 10106 (.other) (.node (.node (.node Tree.nil 10110 (.other) Tree.nil) 10134 (.other) Tree.nil) 10138 (.other)
  (.node Tree.nil 10161 (.other) Tree.nil))) 10165 (.other) (.node (.node (.node (.node Tree.nil 10172 (.other) Tree.nil) 10173 (.other) Tree.nil)
  10186 (.other) (.node Tree.nil 10189 (.other) Tree.nil)) 10190 (.other) (.node (.node Tree.nil 10236 (.str s5) Tree.nil) 10239 (.str s6) (.node
  Tree.nil 10248 (.str s35) Tree.nil)))) 10251 (.str s37) (.node (.node (.node (.node (.node Tree.nil 10255 (.str s38) Tree.nil) 10261 (.other)
  Tree.nil) 10262 (.other) (.node Tree.nil 10263 (.other) Tree.nil)) 10271 (.other) (.node (.node (.node Tree.nil 10274 (.other) Tree.nil) 10278
  (.other) Tree.nil) 10281 (.other) (.node Tree.nil 10284 (.other) Tree.nil))) 10288 (.other) (.node (.node (.node (.node Tree.nil 10300 (.other)
  Tree.nil) 10307 (.other) Tree.nil) 10311 (.other) (.node Tree.nil 10322 (.other) Tree.nil)) 10329 (.other) (.node (.node Tree.nil 10333 (.other)
  Tree.nil) 10346 (.str s5) (.node Tree.nil 10347 (.other) Tree.nil))))) 10348 (.other) (.node (.node (.node (.node (.node (.node Tree.nil 10351
  (.other) Tree.nil) 10357 (.other) Tree.nil) 10360 (.other) (.node Tree.nil 10361 (.other) Tree.nil)) 10368 (.str s6) (.node (.node (.node Tree.nil
  10369 (.other) Tree.nil) 10372 (.other) Tree.nil) 10373 (.other) (.node Tree.nil 10387 (.str s72) Tree.nil))) 10388 (.other) (.node (.node (.node
  (.node Tree.nil 10391 (.other) Tree.nil) 10411 (.other) Tree.nil) 10420 (.other) (.node Tree.nil 10424 (.other) Tree.nil)) 10427 (.other) (.node
  (.node Tree.nil 10455 (.str s72) Tree.nil) 10483 (.other) (.node Tree.nil 10487 (.other) Tree.nil)))) 10649 (.other) (.node (.node (.node (.node
  (.node Tree.nil 10654 (.other) Tree.nil) 11006 (.str s106) Tree.nil) 11021 (.other) (.node Tree.nil 11023 (.str s108) Tree.nil)) 11028 (.other)
  (.node (.node (.node Tree.nil 11030 (.str s109) Tree.nil) 11038 (.str s110) Tree.nil) 11054 (.str s106) (.node Tree.nil 11137 (.str s106)
  Tree.nil))) 11153 (.str s106) (.node (.node (.node (.node Tree.nil 11168 (.other) Tree.nil) 11170 (.str s111) Tree.nil) 11175 (.other) (.node
  Tree.nil 11177 (.str s112) Tree.nil)) 11183 (.str s113) (.node (.node Tree.nil 11219 (.str s114) Tree.nil) 11221 (.other) (.node Tree.nil 11222
  (.other) Tree.nil)))))))
/-- `typeutil.Callee` of call expressions. -/
def calleeTable : Tree Nat := (.node (.node (.node (.node (.node Tree.nil 8377 (962) Tree.nil) 8386 (963) Tree.nil) 8409 (872) (.node (.node
  Tree.nil 8420 (872) Tree.nil) 8568 (774) Tree.nil)) 8639 (961) (.node (.node (.node Tree.nil 8744 (890) Tree.nil) 9139 (906) Tree.nil) 9155 (906)
  (.node (.node Tree.nil 9189 (906) Tree.nil) 9322 (910) Tree.nil))) 9328 (910) (.node (.node (.node (.node Tree.nil 9335 (911) Tree.nil) 9343 (911)
  Tree.nil) 9351 (911) (.node (.node Tree.nil 9360 (912) Tree.nil) 9365 (912) Tree.nil)) 9377 (25) (.node (.node (.node Tree.nil 9385 (25) Tree.nil)
  9392 (25) Tree.nil) 9406 (1050) (.node Tree.nil 11224 (958) Tree.nil))))
/-- `Info.Uses`. -/
def usesTable : Tree Nat := (.node (.node (.node (.node (.node (.node (.node (.node (.node (.node Tree.nil 8218 (19) Tree.nil) 8230 (19) Tree.nil)
  8238 (16) (.node (.node Tree.nil 8241 (19) Tree.nil) 8249 (16) Tree.nil)) 8252 (16) (.node (.node (.node Tree.nil 8264 (19) Tree.nil) 8265 (16)
  Tree.nil) 8276 (861) (.node (.node Tree.nil 8282 (861) Tree.nil) 8284 (869) Tree.nil))) 8286 (870) (.node (.node (.node (.node Tree.nil 8292 (861)
  Tree.nil) 8295 (770) Tree.nil) 8302 (861) (.node (.node Tree.nil 8305 (771) Tree.nil) 8313 (770) Tree.nil)) 8317 (771) (.node (.node (.node
  Tree.nil 8326 (19) Tree.nil) 8337 (19) Tree.nil) 8346 (861) (.node (.node Tree.nil 8350 (19) Tree.nil) 8361 (862) Tree.nil)))) 8364 (16) (.node
  (.node (.node (.node (.node Tree.nil 8368 (19) Tree.nil) 8372 (22) Tree.nil) 8374 (998) (.node (.node Tree.nil 8375 (962) Tree.nil) 8381 (998)
  Tree.nil)) 8382 (963) (.node (.node (.node Tree.nil 8384 (999) Tree.nil) 8385 (1000) Tree.nil) 8393 (16) (.node (.node Tree.nil 8396 (19)
  Tree.nil) 8400 (22) Tree.nil))) 8402 (872) (.node (.node (.node (.node Tree.nil 8404 (778) Tree.nil) 8407 (1001) Tree.nil) 8408 (1002) (.node
  (.node Tree.nil 8413 (872) Tree.nil) 8415 (824) Tree.nil)) 8418 (1001) (.node (.node (.node Tree.nil 8419 (1002) Tree.nil) 8437 (874) Tree.nil)
  8442 (19) (.node (.node Tree.nil 8446 (888) Tree.nil) 8453 (874) Tree.nil))))) 8459 (16) (.node (.node (.node (.node (.node (.node Tree.nil 8463
  (786) Tree.nil) 8470 (786) Tree.nil) 8478 (874) (.node (.node Tree.nil 8484 (16) Tree.nil) 8487 (16) Tree.nil)) 8491 (1005) (.node (.node (.node
  Tree.nil 8495 (875) Tree.nil) 8500 (19) Tree.nil) 8504 (888) (.node (.node Tree.nil 8511 (876) Tree.nil) 8516 (19) Tree.nil))) 8520 (23) (.node
  (.node (.node (.node Tree.nil 8524 (876) Tree.nil) 8529 (19) Tree.nil) 8533 (22) (.node (.node Tree.nil 8535 (888) Tree.nil) 8542 (888) Tree.nil))
  8552 (16) (.node (.node (.node Tree.nil 8555 (19) Tree.nil) 8560 (774) Tree.nil) 8562 (1007) (.node (.node Tree.nil 8563 (1008) Tree.nil) 8565
  (832) Tree.nil)))) 8575 (16) (.node (.node (.node (.node (.node Tree.nil 8582 (16) Tree.nil) 8589 (16) Tree.nil) 8590 (16) (.node (.node Tree.nil
  8598 (19) Tree.nil) 8605 (16) Tree.nil)) 8616 (884) (.node (.node (.node Tree.nil 8620 (888) Tree.nil) 8629 (864) Tree.nil) 8632 (19) (.node
  (.node Tree.nil 8636 (1009) Tree.nil) 8637 (961) Tree.nil))) 8645 (864) (.node (.node (.node (.node Tree.nil 8648 (861) Tree.nil) 8652 (1010)
  Tree.nil) 8658 (16) (.node (.node Tree.nil 8665 (888) Tree.nil) 8671 (16) Tree.nil)) 8675 (1011) (.node (.node (.node Tree.nil 8676 (105)
  Tree.nil) 8682 (888) Tree.nil) 8688 (16) (.node Tree.nil 8692 (1012) Tree.nil)))))) 8693 (105) (.node (.node (.node (.node (.node (.node (.node
  Tree.nil 8699 (888) Tree.nil) 8705 (16) Tree.nil) 8706 (16) (.node (.node Tree.nil 8711 (23) Tree.nil) 8716 (888) Tree.nil)) 8722 (19) (.node
  (.node (.node Tree.nil 8726 (23) Tree.nil) 8731 (888) Tree.nil) 8737 (16) (.node (.node Tree.nil 8741 (1015) Tree.nil) 8742 (890) Tree.nil))) 8759
  (861) (.node (.node (.node (.node Tree.nil 8761 (869) Tree.nil) 8763 (870) Tree.nil) 8769 (861) (.node (.node Tree.nil 8775 (861) Tree.nil) 8779
  (19) Tree.nil)) 8957 (19) (.node (.node (.node Tree.nil 8964 (19) Tree.nil) 8973 (897) Tree.nil) 8978 (19) (.node (.node Tree.nil 8982 (888)
  Tree.nil) 8991 (861) Tree.nil)))) 8995 (897) (.node (.node (.node (.node (.node Tree.nil 9002 (1) Tree.nil) 9003 (1) Tree.nil) 9004 (861) (.node
  (.node Tree.nil 9012 (897) Tree.nil) 9021 (1) Tree.nil)) 9024 (861) (.node (.node (.node Tree.nil 9031 (23) Tree.nil) 9032 (897) Tree.nil) 9039
  (861) (.node (.node Tree.nil 9045 (861) Tree.nil) 9049 (1020) Tree.nil))) 9050 (897) (.node (.node (.node (.node Tree.nil 9053 (1020) Tree.nil)
  9063 (1) Tree.nil) 9068 (861) (.node (.node Tree.nil 9072 (1021) Tree.nil) 9073 (1022) Tree.nil)) 9074 (1023) (.node (.node (.node Tree.nil 9077
  (897) Tree.nil) 9083 (1021) Tree.nil) 9084 (1022) (.node Tree.nil 9085 (1023) Tree.nil))))) 9092 (1) (.node (.node (.node (.node (.node (.node
  Tree.nil 9095 (861) Tree.nil) 9100 (1024) Tree.nil) 9103 (1025) (.node (.node Tree.nil 9104 (23) Tree.nil) 9106 (1026) Tree.nil)) 9107 (897)
  (.node (.node (.node Tree.nil 9115 (897) Tree.nil) 9116 (897) Tree.nil) 9121 (897) (.node (.node Tree.nil 9123 (897) Tree.nil) 9132 (861)
  Tree.nil))) 9137 (1027) (.node (.node (.node (.node Tree.nil 9138 (906) Tree.nil) 9143 (1028) Tree.nil) 9144 (1027) (.node (.node Tree.nil 9148
  (861) Tree.nil) 9152 (1029) Tree.nil)) 9153 (1030) (.node (.node (.node Tree.nil 9154 (906) Tree.nil) 9159 (1029) Tree.nil) 9160 (1030) (.node
  (.node Tree.nil 9168 (861) Tree.nil) 9169 (897) Tree.nil)))) 9177 (861) (.node (.node (.node (.node (.node Tree.nil 9178 (23) Tree.nil) 9179 (897)
  Tree.nil) 9181 (23) (.node (.node Tree.nil 9187 (861) Tree.nil) 9188 (906) Tree.nil)) 9197 (1031) (.node (.node (.node Tree.nil 9198 (1032)
  Tree.nil) 9199 (1033) Tree.nil) 9200 (1035) (.node (.node Tree.nil 9206 (1) Tree.nil) 9207 (897) Tree.nil))) 9213 (861) (.node (.node (.node
  (.node Tree.nil 9218 (0) Tree.nil) 9222 (1038) Tree.nil) 9223 (1037) (.node (.node Tree.nil 9227 (21) Tree.nil) 9230 (1038) Tree.nil)) 9234 (1038)
  (.node (.node (.node Tree.nil 9235 (1039) Tree.nil) 9236 (1037) Tree.nil) 9240 (1039) (.node Tree.nil 9243 (1038) Tree.nil))))))) 9247 (1038)
  (.node (.node (.node (.node (.node (.node (.node (.node Tree.nil 9248 (1039) Tree.nil) 9249 (1037) Tree.nil) 9253 (1039) (.node (.node Tree.nil
  9256 (1038) Tree.nil) 9260 (1038) Tree.nil)) 9261 (1039) (.node (.node (.node Tree.nil 9262 (1037) Tree.nil) 9266 (1039) Tree.nil) 9268 (1038)
  (.node (.node Tree.nil 9278 (1) Tree.nil) 9280 (861) Tree.nil))) 9289 (1) (.node (.node (.node (.node Tree.nil 9291 (861) Tree.nil) 9301 (1)
  Tree.nil) 9303 (861) (.node (.node Tree.nil 9315 (897) Tree.nil) 9318 (910) Tree.nil)) 9321 (1047) (.node (.node (.node Tree.nil 9324 (910)
  Tree.nil) 9327 (23) Tree.nil) 9330 (911) (.node (.node Tree.nil 9333 (23) Tree.nil) 9334 (1047) Tree.nil)))) 9337 (911) (.node (.node (.node
  (.node (.node Tree.nil 9340 (1047) Tree.nil) 9341 (23) Tree.nil) 9342 (23) (.node (.node Tree.nil 9345 (911) Tree.nil) 9348 (23) Tree.nil)) 9349
  (23) (.node (.node (.node Tree.nil 9350 (23) Tree.nil) 9353 (912) Tree.nil) 9355 (861) (.node (.node Tree.nil 9357 (23) Tree.nil) 9358 (23)
  Tree.nil))) 9362 (912) (.node (.node (.node (.node Tree.nil 9364 (23) Tree.nil) 9368 (861) Tree.nil) 9373 (1048) (.node (.node Tree.nil 9374 (25)
  Tree.nil) 9375 (1048) Tree.nil)) 9376 (1047) (.node (.node (.node Tree.nil 9379 (1048) Tree.nil) 9380 (25) Tree.nil) 9381 (1048) (.node (.node
  Tree.nil 9382 (23) Tree.nil) 9383 (23) Tree.nil))))) 9384 (1047) (.node (.node (.node (.node (.node (.node Tree.nil 9387 (1048) Tree.nil) 9388
  (25) Tree.nil) 9389 (1048) (.node (.node Tree.nil 9390 (23) Tree.nil) 9391 (23) Tree.nil)) 9396 (861) (.node (.node (.node Tree.nil 9403 (1050)
  Tree.nil) 9404 (897) Tree.nil) 9411 (861) (.node (.node Tree.nil 9419 (861) Tree.nil) 9424 (914) Tree.nil))) 9435 (1051) (.node (.node (.node
  (.node Tree.nil 9436 (897) Tree.nil) 9441 (1051) Tree.nil) 9442 (23) (.node (.node Tree.nil 9446 (1052) Tree.nil) 9447 (897) Tree.nil)) 9452
  (1052) (.node (.node (.node Tree.nil 9453 (23) Tree.nil) 9457 (1053) Tree.nil) 9466 (19) (.node (.node Tree.nil 9486 (916) Tree.nil) 9488 (917)
  Tree.nil)))) 9494 (861) (.node (.node (.node (.node (.node Tree.nil 9495 (897) Tree.nil) 9500 (861) Tree.nil) 9501 (23) (.node (.node Tree.nil
  9505 (861) Tree.nil) 9506 (1054) Tree.nil)) 9510 (1054) (.node (.node (.node Tree.nil 9511 (861) Tree.nil) 9516 (1054) Tree.nil) 9517 (861) (.node
  (.node Tree.nil 9522 (1056) Tree.nil) 9523 (1057) Tree.nil))) 9526 (1054) (.node (.node (.node (.node Tree.nil 9527 (917) Tree.nil) 9529 (861)
  Tree.nil) 9533 (861) (.node (.node Tree.nil 9538 (1054) Tree.nil) 9541 (917) Tree.nil)) 9543 (1059) (.node (.node (.node Tree.nil 9546 (861)
  Tree.nil) 9547 (1058) Tree.nil) 9548 (1060) (.node Tree.nil 9552 (1061) Tree.nil)))))) 9558 (1058) (.node (.node (.node (.node (.node (.node
  (.node Tree.nil 9564 (861) Tree.nil) 9573 (1) Tree.nil) 9576 (861) (.node (.node Tree.nil 9580 (861) Tree.nil) 9589 (1) Tree.nil)) 9593 (861)
  (.node (.node (.node Tree.nil 9603 (919) Tree.nil) 9604 (897) Tree.nil) 9609 (919) (.node (.node Tree.nil 9610 (23) Tree.nil) 9614 (919)
  Tree.nil))) 9615 (1062) (.node (.node (.node (.node Tree.nil 9616 (897) Tree.nil) 9622 (919) Tree.nil) 9623 (1062) (.node (.node Tree.nil 9624
  (23) Tree.nil) 9629 (919) Tree.nil)) 9633 (919) (.node (.node (.node Tree.nil 9634 (897) Tree.nil) 9640 (920) Tree.nil) 9643 (897) (.node (.node
  Tree.nil 9645 (23) Tree.nil) 9646 (23) Tree.nil)))) 9650 (920) (.node (.node (.node (.node (.node Tree.nil 9653 (23) Tree.nil) 9654 (23) Tree.nil)
  9655 (897) (.node (.node Tree.nil 9660 (920) Tree.nil) 9663 (897) Tree.nil)) 9665 (897) (.node (.node (.node Tree.nil 9667 (897) Tree.nil) 9672
  (920) Tree.nil) 9676 (921) (.node (.node Tree.nil 9679 (23) Tree.nil) 9680 (23) Tree.nil))) 9684 (921) (.node (.node (.node (.node Tree.nil 9687
  (23) Tree.nil) 9688 (897) Tree.nil) 9693 (921) (.node (.node Tree.nil 9694 (1063) Tree.nil) 9697 (1064) Tree.nil)) 9700 (1065) (.node (.node
  (.node Tree.nil 9701 (23) Tree.nil) 9703 (1066) Tree.nil) 9704 (897) (.node Tree.nil 9710 (921) Tree.nil))))) 9711 (1063) (.node (.node (.node
  (.node (.node (.node Tree.nil 9714 (1065) Tree.nil) 9715 (23) Tree.nil) 9717 (1066) (.node (.node Tree.nil 9718 (897) Tree.nil) 9724 (921)
  Tree.nil)) 9725 (1063) (.node (.node (.node Tree.nil 9731 (919) Tree.nil) 9733 (1062) Tree.nil) 9734 (897) (.node (.node Tree.nil 9738 (897)
  Tree.nil) 9741 (1062) Tree.nil))) 9742 (23) (.node (.node (.node (.node Tree.nil 9745 (23) Tree.nil) 9752 (861) Tree.nil) 9756 (1062) (.node
  (.node Tree.nil 9757 (897) Tree.nil) 9764 (861) Tree.nil)) 9768 (897) (.node (.node (.node Tree.nil 9774 (861) Tree.nil) 9778 (1062) Tree.nil)
  9779 (23) (.node (.node Tree.nil 9785 (861) Tree.nil) 9789 (23) Tree.nil)))) 9794 (861) (.node (.node (.node (.node (.node Tree.nil 9802 (861)
  Tree.nil) 9807 (1062) Tree.nil) 9808 (897) (.node (.node Tree.nil 9812 (897) Tree.nil) 9815 (1062) Tree.nil)) 9816 (23) (.node (.node (.node
  Tree.nil 9819 (23) Tree.nil) 9825 (16) Tree.nil) 9826 (919) (.node (.node Tree.nil 9829 (1062) Tree.nil) 9830 (897) Tree.nil))) 9836 (897) (.node
  (.node (.node (.node Tree.nil 9841 (1062) Tree.nil) 9842 (23) Tree.nil) 9847 (23) (.node (.node Tree.nil 9858 (861) Tree.nil) 9863 (923)
  Tree.nil)) 9870 (861) (.node (.node (.node Tree.nil 9875 (861) Tree.nil) 9877 (23) Tree.nil) 9878 (23) (.node Tree.nil 9879 (23) Tree.nil))))))))
  9883 (861) (.node (.node (.node (.node (.node (.node (.node (.node (.node Tree.nil 9885 (23) Tree.nil) 9886 (897) Tree.nil) 9888 (23) (.node
  (.node Tree.nil 9892 (861) Tree.nil) 9894 (23) Tree.nil)) 9895 (897) (.node (.node (.node Tree.nil 9897 (23) Tree.nil) 9898 (23) Tree.nil) 9899
  (897) (.node (.node Tree.nil 9911 (861) Tree.nil) 9914 (23) Tree.nil))) 9917 (897) (.node (.node (.node (.node Tree.nil 9921 (23) Tree.nil) 9924
  (23) Tree.nil) 9927 (897) (.node (.node Tree.nil 9930 (1073) Tree.nil) 9931 (897) Tree.nil)) 9937 (923) (.node (.node (.node Tree.nil 9941 (923)
  Tree.nil) 9942 (23) Tree.nil) 9946 (923) (.node (.node Tree.nil 9947 (897) Tree.nil) 9949 (23) Tree.nil)))) 9953 (923) (.node (.node (.node (.node
  (.node Tree.nil 9955 (897) Tree.nil) 9959 (23) Tree.nil) 9964 (924) (.node (.node Tree.nil 9968 (924) Tree.nil) 9969 (23) Tree.nil)) 9973 (924)
  (.node (.node (.node Tree.nil 9974 (897) Tree.nil) 9976 (23) Tree.nil) 9980 (924) (.node (.node Tree.nil 9982 (897) Tree.nil) 9986 (23)
  Tree.nil))) 9991 (861) (.node (.node (.node (.node Tree.nil 9995 (23) Tree.nil) 9996 (897) Tree.nil) 10000 (23) (.node (.node Tree.nil 10008 (897)
  Tree.nil) 10013 (897) Tree.nil)) 10020 (924) (.node (.node (.node Tree.nil 10022 (23) Tree.nil) 10023 (23) Tree.nil) 10024 (897) (.node (.node
  Tree.nil 10033 (861) Tree.nil) 10038 (923) Tree.nil))))) 10046 (861) (.node (.node (.node (.node (.node (.node Tree.nil 10052 (861) Tree.nil)
  10054 (23) Tree.nil) 10055 (23) (.node (.node Tree.nil 10056 (23) Tree.nil) 10061 (861) Tree.nil)) 10063 (23) (.node (.node (.node Tree.nil 10064
  (897) Tree.nil) 10066 (23) Tree.nil) 10071 (861) (.node (.node Tree.nil 10073 (23) Tree.nil) 10074 (897) Tree.nil))) 10076 (23) (.node (.node
  (.node (.node Tree.nil 10077 (23) Tree.nil) 10078 (897) Tree.nil) 10091 (861) (.node (.node Tree.nil 10094 (23) Tree.nil) 10097 (897) Tree.nil))
  10101 (23) (.node (.node (.node Tree.nil 10104 (23) Tree.nil) 10107 (897) Tree.nil) 10110 (1074) (.node (.node Tree.nil 10111 (897) Tree.nil)
  10117 (926) Tree.nil)))) 10121 (926) (.node (.node (.node (.node (.node Tree.nil 10122 (23) Tree.nil) 10126 (926) Tree.nil) 10127 (897) (.node
  (.node Tree.nil 10129 (23) Tree.nil) 10133 (926) Tree.nil)) 10135 (897) (.node (.node (.node Tree.nil 10139 (23) Tree.nil) 10144 (927) Tree.nil)
  10148 (927) (.node (.node Tree.nil 10149 (23) Tree.nil) 10153 (927) Tree.nil))) 10154 (897) (.node (.node (.node (.node Tree.nil 10156 (23)
  Tree.nil) 10160 (927) Tree.nil) 10162 (897) (.node (.node Tree.nil 10166 (23) Tree.nil) 10174 (861) Tree.nil)) 10178 (23) (.node (.node (.node
  Tree.nil 10179 (897) Tree.nil) 10183 (23) Tree.nil) 10191 (897) (.node Tree.nil 10196 (897) Tree.nil)))))) 10203 (927) (.node (.node (.node (.node
  (.node (.node (.node Tree.nil 10205 (23) Tree.nil) 10206 (897) Tree.nil) 10214 (1) (.node (.node Tree.nil 10215 (861) Tree.nil) 10220 (923)
  Tree.nil)) 10227 (16) (.node (.node (.node Tree.nil 10228 (861) Tree.nil) 10233 (16) Tree.nil) 10234 (861) (.node (.node Tree.nil 10237 (23)
  Tree.nil) 10240 (23) Tree.nil))) 10245 (16) (.node (.node (.node (.node Tree.nil 10246 (861) Tree.nil) 10249 (23) Tree.nil) 10252 (897) (.node
  (.node Tree.nil 10256 (23) Tree.nil) 10268 (1) Tree.nil)) 10269 (861) (.node (.node (.node Tree.nil 10272 (23) Tree.nil) 10275 (897) Tree.nil)
  10279 (23) (.node (.node Tree.nil 10282 (23) Tree.nil) 10285 (897) Tree.nil)))) 10288 (1075) (.node (.node (.node (.node (.node Tree.nil 10289
  (897) Tree.nil) 10295 (929) Tree.nil) 10299 (929) (.node (.node Tree.nil 10301 (23) Tree.nil) 10306 (929) Tree.nil)) 10308 (897) (.node (.node
  (.node Tree.nil 10312 (23) Tree.nil) 10317 (930) Tree.nil) 10321 (930) (.node (.node Tree.nil 10323 (23) Tree.nil) 10328 (930) Tree.nil))) 10330
  (897) (.node (.node (.node (.node Tree.nil 10334 (23) Tree.nil) 10339 (16) Tree.nil) 10340 (1) (.node (.node Tree.nil 10341 (1) Tree.nil) 10342
  (861) Tree.nil)) 10349 (23) (.node (.node (.node Tree.nil 10352 (897) Tree.nil) 10362 (23) Tree.nil) 10374 (897) (.node Tree.nil 10384 (16)
  Tree.nil))))) 10385 (930) (.node (.node (.node (.node (.node (.node Tree.nil 10389 (23) Tree.nil) 10392 (897) Tree.nil) 10400 (861) (.node (.node
  Tree.nil 10401 (1) Tree.nil) 10406 (861) Tree.nil)) 10407 (1) (.node (.node (.node Tree.nil 10409 (897) Tree.nil) 10416 (861) Tree.nil) 10417 (1)
  (.node (.node Tree.nil 10419 (23) Tree.nil) 10422 (897) Tree.nil))) 10426 (23) (.node (.node (.node (.node Tree.nil 10432 (861) Tree.nil) 10433
  (861) Tree.nil) 10435 (23) (.node (.node Tree.nil 10436 (897) Tree.nil) 10439 (897) Tree.nil)) 10441 (23) (.node (.node (.node Tree.nil 10443
  (897) Tree.nil) 10445 (897) Tree.nil) 10451 (16) (.node (.node Tree.nil 10452 (861) Tree.nil) 10456 (897) Tree.nil)))) 10458 (23) (.node (.node
  (.node (.node (.node Tree.nil 10467 (897) Tree.nil) 10470 (897) Tree.nil) 10475 (16) (.node (.node Tree.nil 10476 (897) Tree.nil) 10479 (897)
  Tree.nil)) 10480 (897) (.node (.node (.node Tree.nil 10484 (897) Tree.nil) 10488 (897) Tree.nil) 10492 (897) (.node (.node Tree.nil 10504 (861)
  Tree.nil) 10509 (1083) Tree.nil))) 10510 (1076) (.node (.node (.node (.node Tree.nil 10513 (1083) Tree.nil) 10518 (1076) Tree.nil) 10521 (1084)
  (.node (.node Tree.nil 10526 (1083) Tree.nil) 10527 (1080) Tree.nil)) 10530 (1083) (.node (.node (.node Tree.nil 10535 (1080) Tree.nil) 10538
  (1085) Tree.nil) 10543 (1083) (.node Tree.nil 10544 (1081) Tree.nil))))))) 10547 (1083) (.node (.node (.node (.node (.node (.node (.node (.node
  Tree.nil 10552 (1081) Tree.nil) 10555 (1086) Tree.nil) 10559 (1083) (.node (.node Tree.nil 10561 (1077) Tree.nil) 10564 (1083) Tree.nil)) 10568
  (1083) (.node (.node (.node Tree.nil 10569 (1077) Tree.nil) 10572 (1083) Tree.nil) 10577 (1083) (.node (.node Tree.nil 10578 (1078) Tree.nil)
  10581 (1083) Tree.nil))) 10586 (861) (.node (.node (.node (.node Tree.nil 10590 (1083) Tree.nil) 10591 (1087) Tree.nil) 10592 (1079) (.node (.node
  Tree.nil 10596 (1083) Tree.nil) 10597 (1087) Tree.nil)) 10601 (1083) (.node (.node (.node Tree.nil 10602 (1083) Tree.nil) 10603 (1079) Tree.nil)
  10606 (1083) (.node (.node Tree.nil 10610 (1083) Tree.nil) 10611 (1079) Tree.nil)))) 10614 (1083) (.node (.node (.node (.node (.node Tree.nil
  10618 (1083) Tree.nil) 10619 (1082) Tree.nil) 10622 (1083) (.node (.node Tree.nil 10629 (897) Tree.nil) 10633 (897) Tree.nil)) 10639 (16) (.node
  (.node (.node Tree.nil 10640 (897) Tree.nil) 10644 (897) Tree.nil) 10645 (897) (.node (.node Tree.nil 10650 (897) Tree.nil) 10655 (897)
  Tree.nil))) 10660 (897) (.node (.node (.node (.node Tree.nil 10666 (933) Tree.nil) 10668 (934) Tree.nil) 10670 (935) (.node (.node Tree.nil 10672
  (936) Tree.nil) 10674 (937) Tree.nil)) 10676 (938) (.node (.node (.node Tree.nil 10678 (937) Tree.nil) 10681 (939) Tree.nil) 10693 (861) (.node
  Tree.nil 10698 (1096) Tree.nil))))) 10699 (1088) (.node (.node (.node (.node (.node (.node Tree.nil 10702 (1096) Tree.nil) 10707 (1088) Tree.nil)
  10710 (1097) (.node (.node Tree.nil 10715 (1096) Tree.nil) 10716 (1092) Tree.nil)) 10719 (1096) (.node (.node (.node Tree.nil 10724 (1092)
  Tree.nil) 10727 (1098) Tree.nil) 10732 (1096) (.node (.node Tree.nil 10733 (1093) Tree.nil) 10736 (1096) Tree.nil))) 10741 (1093) (.node (.node
  (.node (.node Tree.nil 10744 (1099) Tree.nil) 10749 (1096) Tree.nil) 10750 (1094) (.node (.node Tree.nil 10753 (1096) Tree.nil) 10758 (1094)
  Tree.nil)) 10761 (1100) (.node (.node (.node Tree.nil 10765 (1096) Tree.nil) 10767 (1089) Tree.nil) 10770 (1096) (.node (.node Tree.nil 10774
  (1096) Tree.nil) 10775 (1089) Tree.nil)))) 10778 (1096) (.node (.node (.node (.node (.node Tree.nil 10783 (1096) Tree.nil) 10784 (1090) Tree.nil)
  10787 (1096) (.node (.node Tree.nil 10792 (861) Tree.nil) 10796 (1096) Tree.nil)) 10797 (1101) (.node (.node (.node Tree.nil 10798 (1091)
  Tree.nil) 10802 (1096) Tree.nil) 10803 (1101) (.node (.node Tree.nil 10807 (1096) Tree.nil) 10808 (1096) Tree.nil))) 10809 (1091) (.node (.node
  (.node (.node Tree.nil 10812 (1096) Tree.nil) 10816 (1096) Tree.nil) 10817 (1091) (.node (.node Tree.nil 10820 (1096) Tree.nil) 10824 (1096)
  Tree.nil)) 10825 (1095) (.node (.node (.node Tree.nil 10828 (1096) Tree.nil) 10835 (861) Tree.nil) 10841 (897) (.node Tree.nil 10844 (861)
  Tree.nil)))))) 10847 (941) (.node (.node (.node (.node (.node (.node (.node Tree.nil 10854 (861) Tree.nil) 10855 (1102) Tree.nil) 10861 (1102)
  (.node (.node Tree.nil 10866 (1102) Tree.nil) 10867 (897) Tree.nil)) 10870 (1102) (.node (.node (.node Tree.nil 10871 (1106) Tree.nil) 10873
  (1103) Tree.nil) 10874 (897) (.node (.node Tree.nil 10877 (1103) Tree.nil) 10878 (1102) Tree.nil))) 10881 (1103) (.node (.node (.node (.node
  Tree.nil 10882 (1105) Tree.nil) 10884 (1104) Tree.nil) 10885 (897) (.node (.node Tree.nil 10888 (1104) Tree.nil) 10889 (1102) Tree.nil)) 10892
  (1105) (.node (.node (.node Tree.nil 10893 (1102) Tree.nil) 10897 (1105) Tree.nil) 10900 (1106) (.node (.node Tree.nil 10901 (1102) Tree.nil)
  10905 (1105) Tree.nil)))) 10908 (1102) (.node (.node (.node (.node (.node Tree.nil 10909 (897) Tree.nil) 10913 (1105) Tree.nil) 10916 (1102)
  (.node (.node Tree.nil 10917 (1106) Tree.nil) 10920 (1105) Tree.nil)) 10923 (1103) (.node (.node (.node Tree.nil 10924 (897) Tree.nil) 10928
  (1105) Tree.nil) 10931 (1103) (.node (.node Tree.nil 10932 (1102) Tree.nil) 10936 (1105) Tree.nil))) 10939 (1104) (.node (.node (.node (.node
  Tree.nil 10940 (897) Tree.nil) 10944 (1105) Tree.nil) 10947 (1104) (.node (.node Tree.nil 10948 (1102) Tree.nil) 10952 (1105) Tree.nil)) 10955
  (1103) (.node (.node (.node Tree.nil 10956 (1105) Tree.nil) 10959 (1105) Tree.nil) 10969 (19) (.node Tree.nil 10976 (19) Tree.nil))))) 10983 (19)
  (.node (.node (.node (.node (.node (.node Tree.nil 10996 (944) Tree.nil) 11001 (19) Tree.nil) 11005 (888) (.node (.node Tree.nil 11012 (944)
  Tree.nil) 11017 (19) Tree.nil)) 11021 (21) (.node (.node (.node Tree.nil 11022 (888) Tree.nil) 11028 (21) Tree.nil) 11029 (888) (.node (.node
  Tree.nil 11037 (888) Tree.nil) 11044 (944) Tree.nil))) 11049 (19) (.node (.node (.node (.node Tree.nil 11053 (888) Tree.nil) 11064 (943) Tree.nil)
  11065 (944) (.node (.node Tree.nil 11071 (1107) Tree.nil) 11078 (19) Tree.nil)) 11089 (19) (.node (.node (.node Tree.nil 11100 (19) Tree.nil)
  11110 (16) Tree.nil) 11113 (950) (.node (.node Tree.nil 11127 (952) Tree.nil) 11132 (19) Tree.nil)))) 11136 (888) (.node (.node (.node (.node
  (.node Tree.nil 11143 (953) Tree.nil) 11148 (19) Tree.nil) 11152 (888) (.node (.node Tree.nil 11159 (954) Tree.nil) 11164 (19) Tree.nil)) 11168
  (21) (.node (.node (.node Tree.nil 11169 (888) Tree.nil) 11175 (21) Tree.nil) 11176 (888) (.node (.node Tree.nil 11182 (888) Tree.nil) 11195 (1)
  Tree.nil))) 11197 (951) (.node (.node (.node (.node Tree.nil 11201 (953) Tree.nil) 11205 (953) Tree.nil) 11212 (954) (.node (.node Tree.nil 11217
  (949) Tree.nil) 11218 (952) Tree.nil)) 11220 (958) (.node (.node (.node Tree.nil 11223 (1111) Tree.nil) 11230 (1112) Tree.nil) 11236 (864) (.node
  Tree.nil 11240 (897) Tree.nil)))))))))
/-- `Info.Selections`. -/
def selectionTable : Tree (GoType × Nat) := (.node (.node (.node Tree.nil 8376 ((.named 862, 962)) Tree.nil) 8383 ((.named 862, 963)) (.node
  Tree.nil 8638 ((.named 864, 961)) Tree.nil)) 8677 ((.pointer (.named 888), 105)) (.node (.node Tree.nil 8694 ((.pointer (.named 888), 105))
  Tree.nil) 8743 ((.pointer (.named 888), 890)) Tree.nil))
/-- Identifiers that are names of imported packages. -/
def pkgNameTable : Tree GoString := (.node (.node (.node (.node Tree.nil 8294 (s16) Tree.nil) 8304 (s16) Tree.nil) 8312 (s16) (.node (.node Tree.nil
  8316 (s16) Tree.nil) 8403 (s16) Tree.nil)) 8414 (s101) (.node (.node (.node Tree.nil 8462 (s16) Tree.nil) 8469 (s16) Tree.nil) 8559 (s16) (.node
  Tree.nil 8564 (s101) Tree.nil)))
/-- Method sets. -/
def methodSetTable : Tree (List (GoString × Nat)) := (.node (.node (.node (.node (.node (.node (.node Tree.nil 27 ([(s29, 1386)]) Tree.nil) 95
  ([(s29, 20)]) Tree.nil) 392 ([(s21, 1405)]) (.node Tree.nil 397 ([(s8, 1407), (s9, 1408), (s10, 1406)]) Tree.nil)) 432 ([(s28, 1413), (s23, 1411),
  (s27, 1412), (s29, 1410), (s26, 1409)]) (.node (.node Tree.nil 437 ([(s95, 1414)]) Tree.nil) 452 ([(s115, 1415)]) (.node Tree.nil 457 ([(s93,
  1416)]) Tree.nil))) 462 ([(s116, 1417)]) (.node (.node (.node Tree.nil 477 ([(s88, 1419), (s89, 1418), (s90, 1420)]) Tree.nil) 482 ([(s117,
  1421)]) (.node Tree.nil 487 ([(s94, 1422)]) Tree.nil)) 492 ([(s118, 1423), (s119, 1424)]) (.node (.node Tree.nil 497 ([(s3, 1426), (s4, 1425),
  (s120, 1427)]) Tree.nil) 502 ([(s115, 1429), (s21, 1428)]) (.node Tree.nil 3845 ([(s8, 792), (s9, 793), (s10, 794)]) Tree.nil)))) 3850 ([(s21,
  795)]) (.node (.node (.node (.node Tree.nil 3855 ([(s21, 796)]) Tree.nil) 3890 ([(s3, 779), (s4, 780), (s120, 781)]) (.node Tree.nil 3891 ([(s3,
  779), (s4, 780), (s120, 781)]) Tree.nil)) 3931 ([(s28, 790), (s23, 787), (s27, 789), (s29, 791), (s26, 788)]) (.node (.node Tree.nil 4120 ([(s3,
  825), (s4, 826), (s120, 827)]) Tree.nil) 4121 ([(s3, 825), (s4, 826), (s120, 827)]) (.node Tree.nil 4160 ([(s8, 833), (s9, 834), (s10, 835)])
  Tree.nil))) 4161 ([(s8, 833), (s9, 834), (s10, 835)]) (.node (.node (.node Tree.nil 4305 ([(s21, 961)]) Tree.nil) 4310 ([(s3, 962), (s4, 963),
  (s120, 964)]) (.node Tree.nil 4315 ([(s117, 965)]) Tree.nil)) 4320 ([(s21, 961)]) (.node (.node Tree.nil 4325 ([(s115, 967), (s21, 966)])
  Tree.nil) 4330 ([(s21, 795)]) (.node Tree.nil 4335 ([(s21, 796)]) Tree.nil))))) 4340 ([(s21, 796)]) (.node (.node (.node (.node (.node Tree.nil
  4345 ([(s21, 966)]) Tree.nil) 4350 ([(s115, 967)]) (.node Tree.nil 4355 ([(s21, 968)]) Tree.nil)) 4370 ([(s8, 877), (s9, 878), (s10, 879)]) (.node
  (.node Tree.nil 4371 ([(s8, 877), (s9, 878), (s10, 879)]) Tree.nil) 4375 ([(s11, 880)]) (.node Tree.nil 4376 ([(s11, 880)]) Tree.nil))) 4380
  ([(s12, 881), (s14, 882)]) (.node (.node (.node Tree.nil 4381 ([(s12, 881), (s14, 882)]) Tree.nil) 4420 ([(s28, 972), (s23, 969), (s27, 971),
  (s29, 973), (s26, 970)]) (.node Tree.nil 4441 ([(s28, 892), (s23, 889), (s27, 891), (s29, 893), (s26, 890)]) Tree.nil)) 4470 ([(s115, 967), (s21,
  966)]) (.node (.node Tree.nil 4475 ([(s21, 961)]) Tree.nil) 4480 ([(s21, 975)]) (.node Tree.nil 4485 ([(s21, 899)]) Tree.nil)))) 4486 ([(s21,
  899)]) (.node (.node (.node (.node Tree.nil 4490 ([(s118, 976), (s119, 977)]) Tree.nil) 4580 ([(s21, 978)]) (.node Tree.nil 4585 ([(s116, 979)])
  Tree.nil)) 4715 ([(s88, 990), (s89, 991), (s90, 992)]) (.node (.node Tree.nil 4720 ([(s88, 945), (s89, 946), (s90, 947)]) Tree.nil) 4721 ([(s88,
  945), (s89, 946), (s90, 947)]) (.node Tree.nil 4745 ([(s93, 993)]) Tree.nil))) 4750 ([(s94, 994)]) (.node (.node (.node Tree.nil 4755 ([(s95,
  995)]) Tree.nil) 4760 ([(s93, 955)]) (.node Tree.nil 4761 ([(s93, 955)]) Tree.nil)) 4765 ([(s94, 956)]) (.node (.node Tree.nil 4766 ([(s94, 956)])
  Tree.nil) 4770 ([(s95, 957)]) (.node Tree.nil 4771 ([(s95, 957)]) Tree.nil))))))
/-- Types implementing `error`. -/
def implErrorTable : Tree Unit := (.node (.node (.node Tree.nil 27 (()) Tree.nil) 95 (()) (.node Tree.nil 432 (()) Tree.nil)) 3931 (()) (.node
  (.node Tree.nil 4420 (()) Tree.nil) 4441 (()) Tree.nil))
/-- Types implementing `error` with a code. -/
def implCodeTable : Tree Unit := (.node (.node (.node Tree.nil 432 (()) Tree.nil) 3931 (()) Tree.nil) 4420 (()) (.node Tree.nil 4441 (()) Tree.nil))
/-- Types implementing `error` with a cause. -/
def implCauseTable : Tree Unit := (.node (.node (.node Tree.nil 432 (()) Tree.nil) 3931 (()) Tree.nil) 4420 (()) (.node Tree.nil 4441 (()) Tree.nil))
/-- Signatures: types of parameters, variadic, number of results. -/
def sigTable : Tree (List GoType × Bool × Nat) := (.node (.node (.node (.node (.node (.node Tree.nil 6 (([], false, 1)) Tree.nil) 11 (([], false,
  1)) Tree.nil) 15 (([], false, 0)) (.node Tree.nil 23 (([], false, 1)) Tree.nil)) 27 (([.string, .string], false, 1)) (.node (.node Tree.nil 66
  (([], false, 2)) Tree.nil) 80 (([.string, .string], false, 1)) (.node Tree.nil 81 (([.string, .string], false, 1)) Tree.nil))) 82 (([.string,
  .string, .named 769], false, 1)) (.node (.node (.node Tree.nil 101 (([.named 862, .string, .string], false, 1)) Tree.nil) 102 (([], false, 1))
  (.node Tree.nil 103 (([.named 864], false, 1)) Tree.nil)) 104 (([.named 864], false, 1)) (.node (.node Tree.nil 105 (([], false, 1)) Tree.nil) 106
  (([], false, 3)) (.node Tree.nil 107 (([], false, 4)) Tree.nil)))) 108 (([], false, 1)) (.node (.node (.node (.node (.node Tree.nil 109 (([],
  false, 3)) Tree.nil) 110 (([], false, 2)) Tree.nil) 112 (([.map (.other 8) (.named 897)], false, 0)) (.node Tree.nil 114 (([.other 8, .other 8,
  .named 861], false, 0)) Tree.nil)) 115 (([.other 8, .slice (.named 861)], true, 0)) (.node (.node Tree.nil 116 (([.other 8, .slice (.named 861)],
  false, 0)) Tree.nil) 117 (([.slice (.named 861), .slice (.named 861)], true, 1)) (.node Tree.nil 118 (([.named 861], false, 0)) Tree.nil))) 119
  (([.map (.named 861) (.struct 2), .named 914, .slice (.struct 2)], false, 0)) (.node (.node (.node Tree.nil 120 (([.named 916, .named 917], false,
  0)) Tree.nil) 123 (([.slice (.named 897), .map (.named 897) (.struct 2), .map (.string) (.named 897), .map (.named 897) (.named 897), .array
  (.named 897), .pointer (.array (.named 897)), .chan (.named 897)], false, 0)) (.node Tree.nil 124 (([.named 933, .named 934, .named 935, .named
  936, .named 937, .named 938, .pointer (.named 937), .named 939], false, 0)) Tree.nil)) 125 (([.chan (.named 897), .chan (.named 861), .named 941],
  false, 0)) (.node (.node Tree.nil 126 (([.other 8, .other 8, .named 951], false, 1)) Tree.nil) 127 (([.named 954], false, 0)) (.node Tree.nil 128
  (([], false, 1)) Tree.nil)))))
/-- Tuples of results. -/
def tupleTable : Tree (List GoType) := (.node (.node (.node Tree.nil 56 ([]) Tree.nil) 111 ([.named 897, .named 897]) Tree.nil) 113 ([.named 897,
  .other 10]) (.node Tree.nil 121 ([.named 861, .other 10]) Tree.nil))
/-- Fields of structs. -/
def structTable : Tree (List (GoString × GoType)) := (.node (.node (.node Tree.nil 1 ([(s25, .string)]) Tree.nil) 2 ([]) (.node Tree.nil 88 ([(s33,
  .other 8), (s33, .other 8), (s33, .named 861), (s33, .named 861), (s33, .named 861)]) Tree.nil)) 89 ([(s33, .string), (s33, .named 950)]) (.node
  (.node Tree.nil 93 ([(s50, .named 861)]) Tree.nil) 94 ([(s42, .other 8), (s43, .other 8), (s35, .named 861), (s37, .named 861)]) Tree.nil))
/-- Underlying types of named types. -/
def underlyingTable : Tree GoType := (.node (.node (.node (.node (.node (.node Tree.nil 19 (.interface 5) Tree.nil) 769 (.interface 79) (.node
  Tree.nil 770 (.interface 78) Tree.nil)) 771 (.interface 78) (.node (.node Tree.nil 778 (.struct 2) Tree.nil) 786 (.struct 1) (.node Tree.nil 824
  (.struct 2) Tree.nil))) 832 (.struct 2) (.node (.node (.node Tree.nil 861 (.interface 78) Tree.nil) 862 (.interface 99) (.node Tree.nil 863
  (.interface 96) Tree.nil)) 864 (.interface 78) (.node (.node Tree.nil 865 (.interface 100) Tree.nil) 866 (.interface 78) Tree.nil))) 867
  (.interface 78) (.node (.node (.node (.node Tree.nil 868 (.interface 78) Tree.nil) 869 (.interface 78) (.node Tree.nil 870 (.interface 90)
  Tree.nil)) 871 (.interface 78) (.node (.node Tree.nil 874 (.struct 2) Tree.nil) 875 (.struct 2) Tree.nil)) 876 (.struct 2) (.node (.node (.node
  Tree.nil 884 (.interface 86) Tree.nil) 888 (.struct 1) (.node Tree.nil 894 (.interface 100) Tree.nil)) 895 (.interface 78) (.node (.node Tree.nil
  896 (.interface 78) Tree.nil) 897 (.struct 2) Tree.nil)))) 898 (.interface 98) (.node (.node (.node (.node (.node Tree.nil 914 (.map (.named 861)
  (.struct 2)) Tree.nil) 916 (.interface 78) (.node Tree.nil 917 (.interface 92) Tree.nil)) 919 (.struct 93) (.node (.node Tree.nil 920 (.struct 88)
  Tree.nil) 921 (.struct 94) (.node Tree.nil 923 (.slice (.named 861)) Tree.nil))) 924 (.slice (.named 861)) (.node (.node (.node Tree.nil 926
  (.array (.named 861)) Tree.nil) 927 (.slice (.named 861)) (.node Tree.nil 929 (.map (.other 8) (.named 861)) Tree.nil)) 930 (.slice (.named 861))
  (.node (.node Tree.nil 933 (.slice (.named 897)) Tree.nil) 934 (.map (.named 897) (.struct 2)) Tree.nil))) 935 (.map (.string) (.named 897))
  (.node (.node (.node (.node Tree.nil 936 (.map (.named 897) (.named 897)) Tree.nil) 937 (.array (.named 897)) (.node Tree.nil 938 (.pointer
  (.array (.named 897))) Tree.nil)) 939 (.chan (.named 897)) (.node (.node Tree.nil 941 (.chan (.named 861)) Tree.nil) 943 (.interface 95)
  Tree.nil)) 944 (.struct 2) (.node (.node (.node Tree.nil 949 (.interface 91) Tree.nil) 950 (.interface 97) (.node Tree.nil 951 (.interface 87)
  Tree.nil)) 952 (.struct 89) (.node (.node Tree.nil 953 (.struct 2) Tree.nil) 954 (.struct 2) Tree.nil)))))
/-- Which types implement which interfaces. -/
def implTable : Tree (Tree Unit) := (.node (.node (.node (.node Tree.nil 5 ((.node (.node (.node Tree.nil 27 (()) Tree.nil) 95 (()) (.node Tree.nil
  432 (()) Tree.nil)) 3931 (()) (.node (.node Tree.nil 4420 (()) Tree.nil) 4441 (()) Tree.nil))) Tree.nil) 78 ((.node (.node (.node (.node (.node
  Tree.nil 392 (()) Tree.nil) 502 (()) Tree.nil) 3850 (()) (.node Tree.nil 3855 (()) Tree.nil)) 4305 (()) (.node (.node (.node Tree.nil 4320 (())
  Tree.nil) 4325 (()) Tree.nil) 4330 (()) (.node Tree.nil 4335 (()) Tree.nil))) 4340 (()) (.node (.node (.node (.node Tree.nil 4345 (()) Tree.nil)
  4355 (()) Tree.nil) 4470 (()) (.node Tree.nil 4475 (()) Tree.nil)) 4480 (()) (.node (.node Tree.nil 4485 (()) Tree.nil) 4486 (()) (.node Tree.nil
  4580 (()) Tree.nil))))) (.node Tree.nil 79 ((.node (.node (.node Tree.nil 397 (()) Tree.nil) 3845 (()) (.node Tree.nil 4160 (()) Tree.nil)) 4161
  (()) (.node (.node Tree.nil 4370 (()) Tree.nil) 4371 (()) Tree.nil))) Tree.nil)) 86 ((.node (.node (.node Tree.nil 432 (()) Tree.nil) 3931 (())
  Tree.nil) 4420 (()) (.node Tree.nil 4441 (()) Tree.nil))) (.node (.node Tree.nil 87 ((.node (.node (.node Tree.nil 437 (()) Tree.nil) 4755 (())
  Tree.nil) 4770 (()) (.node Tree.nil 4771 (()) Tree.nil))) Tree.nil) 90 ((.node (.node (.node Tree.nil 452 (()) Tree.nil) 502 (()) Tree.nil) 4325
  (()) (.node (.node Tree.nil 4350 (()) Tree.nil) 4470 (()) Tree.nil))) (.node Tree.nil 91 ((.node (.node (.node Tree.nil 457 (()) Tree.nil) 4745
  (()) Tree.nil) 4760 (()) (.node Tree.nil 4761 (()) Tree.nil))) Tree.nil))) 92 ((.node (.node Tree.nil 462 (()) Tree.nil) 4585 (()) Tree.nil))
  (.node (.node (.node Tree.nil 95 ((.node (.node (.node Tree.nil 477 (()) Tree.nil) 4715 (()) Tree.nil) 4720 (()) (.node Tree.nil 4721 (())
  Tree.nil))) Tree.nil) 96 ((.node (.node Tree.nil 482 (()) Tree.nil) 4315 (()) Tree.nil)) (.node Tree.nil 97 ((.node (.node (.node Tree.nil 487
  (()) Tree.nil) 4750 (()) Tree.nil) 4765 (()) (.node Tree.nil 4766 (()) Tree.nil))) Tree.nil)) 98 ((.node (.node Tree.nil 492 (()) Tree.nil) 4490
  (()) Tree.nil)) (.node (.node Tree.nil 99 ((.node (.node (.node Tree.nil 497 (()) Tree.nil) 3890 (()) (.node Tree.nil 3891 (()) Tree.nil)) 4120
  (()) (.node (.node Tree.nil 4121 (()) Tree.nil) 4310 (()) Tree.nil))) Tree.nil) 100 ((.node (.node Tree.nil 502 (()) Tree.nil) 4325 (()) (.node
  Tree.nil 4470 (()) Tree.nil))) Tree.nil)))
/-- Comments at return statements (`ast.NewCommentMap`). -/
def commentTable : Tree (List (List GoString)) := (.node (.node (.node (.node Tree.nil 8450 ([[s121]]) Tree.nil) 8475 ([[s122]]) (.node Tree.nil
  8508 ([[s123]]) Tree.nil)) 8521 ([[s124]]) (.node (.node Tree.nil 8569 ([[s125]]) Tree.nil) 8624 ([[s126]]) (.node Tree.nil 8640 ([[s127]])
  Tree.nil))) 8986 ([[s128]]) (.node (.node (.node Tree.nil 8997 ([[s129]]) Tree.nil) 9014 ([[s129]]) (.node Tree.nil 9034 ([[s129]]) Tree.nil))
  11140 ([[s130]]) (.node (.node Tree.nil 11156 ([[s131]]) Tree.nil) 11242 ([[s132]]) Tree.nil)))
/-- Function declarations. -/
def declTable : Tree DeclInfo := (.node (.node (.node (.node (.node (.node Tree.nil 0 (⟨s0, true, none, some (CommentText.text [s133, s134, s135,
  s136, s137, s138]), 8389, 872, []⟩) Tree.nil) 1 (⟨s7, true, none, some (CommentText.text [s133, s134, s135, s136, s137, s138]), 8423, 873, []⟩)
  (.node Tree.nil 2 (⟨s8, true, some 8437, some (CommentText.text [s133, s134, s135]), 8452, 877, []⟩) Tree.nil)) 3 (⟨s9, true, some 8453, some
  (CommentText.text [s133, s134, s137]), 8477, 878, []⟩) (.node (.node Tree.nil 4 (⟨s10, true, some 8478, none, 8494, 879, []⟩) Tree.nil) 5 (⟨s11,
  true, some 8495, some (CommentText.text [s133, s134, s135]), 8510, 880, []⟩) Tree.nil)) 6 (⟨s12, true, some 8511, none, 8523, 881, []⟩) (.node
  (.node (.node Tree.nil 7 (⟨s14, true, some 8524, some (CommentText.text [s133, s134, s139, s136]), 8548, 882, []⟩) Tree.nil) 8 (⟨s15, true, none,
  some (CommentText.text [s133, s134, s135, s136, s137, s138]), 8571, 883, []⟩) Tree.nil) 9 (⟨s18, true, none, some (CommentText.text [s133, s134,
  s140]), 8626, 885, []⟩) (.node (.node Tree.nil 10 (⟨s19, true, none, some (CommentText.text [s133, s134, s135, s136]), 8642, 886, []⟩) Tree.nil)
  11 (⟨s22, true, none, none, 8655, 887, []⟩) Tree.nil))) 12 (⟨s23, true, some 8666, none, 8680, 889, [⟨8664, s24, (some 53)⟩]⟩) (.node (.node
  (.node (.node Tree.nil 13 (⟨s26, true, some 8683, none, 8697, 890, [⟨8681, s24, (some 54)⟩]⟩) Tree.nil) 14 (⟨s27, true, some 8700, none, 8714,
  891, [⟨8698, s24, (some 55)⟩]⟩) (.node Tree.nil 15 (⟨s28, true, some 8717, none, 8729, 892, [⟨8715, s24, (some 56)⟩]⟩) Tree.nil)) 16 (⟨s29, true,
  some 8732, none, 8747, 893, [⟨8730, s24, (some 57)⟩]⟩) (.node (.node Tree.nil 17 (⟨s21, true, some 8973, some (CommentText.text [s141, s142, s134,
  s133, s134, s143]), 8988, 899, []⟩) Tree.nil) 18 (⟨s30, true, none, none, 8999, 900, []⟩) Tree.nil)) 19 (⟨s31, true, none, none, 9016, 901, []⟩)
  (.node (.node (.node Tree.nil 20 (⟨s32, true, none, none, 9036, 902, []⟩) Tree.nil) 21 (⟨s34, true, none, none, 9057, 903, []⟩) Tree.nil) 22
  (⟨s36, true, none, none, 9088, 904, []⟩) (.node (.node Tree.nil 23 (⟨s39, true, none, none, 9112, 905, []⟩) Tree.nil) 24 (⟨s40, true, none, none,
  9127, 906, []⟩) Tree.nil)))) 25 (⟨s41, true, none, none, 9163, 907, []⟩) (.node (.node (.node (.node (.node Tree.nil 26 (⟨s44, true, none, none,
  9203, 908, []⟩) Tree.nil) 27 (⟨s49, true, none, none, 9274, 909, []⟩) (.node Tree.nil 28 (⟨s54, true, none, none, 9286, 910, []⟩) Tree.nil)) 29
  (⟨s55, true, none, none, 9298, 911, []⟩) (.node (.node Tree.nil 30 (⟨s56, true, none, none, 9310, 912, []⟩) Tree.nil) 31 (⟨s57, true, none, none,
  9409, 913, []⟩) Tree.nil)) 33 (⟨s61, true, none, none, 9462, 915, []⟩) (.node (.node (.node Tree.nil 34 (⟨s63, true, none, none, 9561, 918, []⟩)
  Tree.nil) 35 (⟨s70, true, none, none, 9856, 922, []⟩) Tree.nil) 36 (⟨s71, true, none, none, 10030, 925, []⟩) (.node (.node Tree.nil 37 (⟨s73,
  true, none, none, 10212, 928, []⟩) Tree.nil) 38 (⟨s74, true, none, none, 10464, 931, []⟩) Tree.nil))) 39 (⟨s75, true, none, none, 10627, 932, []⟩)
  (.node (.node (.node (.node Tree.nil 40 (⟨s83, true, none, none, 10833, 940, []⟩) Tree.nil) 41 (⟨s85, true, none, none, 10965, 942, []⟩) (.node
  Tree.nil 42 (⟨s88, false, some 10996, none, 11011, 945, []⟩) Tree.nil)) 43 (⟨s89, false, some 11012, none, 11043, 946, []⟩) (.node (.node Tree.nil
  44 (⟨s90, false, some 11044, none, 11059, 947, []⟩) Tree.nil) 45 (⟨s91, true, none, none, 11074, 948, []⟩) Tree.nil)) 46 (⟨s93, true, some 11127,
  some (CommentText.text [s133, s134, s144]), 11142, 955, []⟩) (.node (.node (.node Tree.nil 47 (⟨s94, true, some 11143, some (CommentText.text
  [s133, s134, s144]), 11158, 956, []⟩) Tree.nil) 48 (⟨s95, true, some 11159, some (CommentText.text [s133, s134, s145, s146, s147]), 11191, 957,
  []⟩) Tree.nil) 49 (⟨s96, true, none, none, 11209, 958, []⟩) (.node (.node Tree.nil 50 (⟨s97, true, none, none, 11233, 959, []⟩) Tree.nil) 51
  (⟨s100, true, none, none, 11244, 960, []⟩) Tree.nil)))))
/-- Named interfaces. -/
def interfaceTable : Tree Unit := (.node (.node (.node (.node (.node Tree.nil 19 (()) Tree.nil) 769 (()) (.node Tree.nil 770 (()) Tree.nil)) 771
  (()) (.node (.node Tree.nil 861 (()) Tree.nil) 862 (()) Tree.nil)) 863 (()) (.node (.node (.node Tree.nil 864 (()) Tree.nil) 865 (()) (.node
  Tree.nil 866 (()) Tree.nil)) 867 (()) (.node (.node Tree.nil 868 (()) Tree.nil) 869 (()) Tree.nil))) 870 (()) (.node (.node (.node (.node Tree.nil
  871 (()) Tree.nil) 884 (()) (.node Tree.nil 894 (()) Tree.nil)) 895 (()) (.node (.node Tree.nil 896 (()) Tree.nil) 898 (()) Tree.nil)) 916 (())
  (.node (.node (.node Tree.nil 917 (()) Tree.nil) 943 (()) Tree.nil) 949 (()) (.node (.node Tree.nil 950 (()) Tree.nil) 951 (()) Tree.nil))))
/-- Methods of named types. -/
def methodNameTable : Tree (List GoString) := (.node (.node (.node (.node Tree.nil 778 ([s3, s4, s120]) Tree.nil) 786 ([s23, s26, s27, s28, s29])
  (.node Tree.nil 824 ([s3, s4, s120]) Tree.nil)) 832 ([s8, s9, s10]) (.node (.node Tree.nil 874 ([s8, s9, s10]) Tree.nil) 875 ([s11]) Tree.nil))
  876 ([s12, s14]) (.node (.node (.node Tree.nil 888 ([s23, s26, s27, s28, s29]) Tree.nil) 897 ([s21]) (.node Tree.nil 944 ([s88, s89, s90])
  Tree.nil)) 952 ([s93]) (.node (.node Tree.nil 953 ([s94]) Tree.nil) 954 ([s95]) Tree.nil)))
/-- Objects of interface methods. -/
def methodObjTable : Tree Nat := (.node (.node (.node (.node (.node Tree.nil 8216 (961) Tree.nil) 8228 (962) (.node Tree.nil 8235 (963) Tree.nil))
  8246 (964) (.node (.node Tree.nil 8262 (965) Tree.nil) 8324 (966) Tree.nil)) 8335 (967) (.node (.node (.node Tree.nil 8348 (968) Tree.nil) 8573
  (969) Tree.nil) 8580 (970) (.node (.node Tree.nil 8587 (971) Tree.nil) 8596 (972) Tree.nil))) 8603 (973) (.node (.node (.node (.node Tree.nil 8777
  (975) Tree.nil) 8955 (976) Tree.nil) 8962 (977) (.node (.node Tree.nil 9464 (978) Tree.nil) 9476 (979) Tree.nil)) 10967 (990) (.node (.node (.node
  Tree.nil 10974 (991) Tree.nil) 10981 (992) Tree.nil) 11076 (993) (.node (.node Tree.nil 11087 (994) Tree.nil) 11098 (995) Tree.nil))))
/-- Syntax and types of the package, and the facts exported by the packages it imports. -/
def env : Env where
  funcs := [f0, f1, f2, f3, f4, f5, f6, f7, f8, f9, f10, f11, f12, f13, f14, f15, f16, f17, f18, f19, f20, f21, f22, f23, f24, f25, f26, f27, f28,
  f29, f30, f31, f32, f33, f34, f35, f36, f37, f38, f39, f40, f41, f42, f43, f44, f45, f46, f47, f48, f49, f50, f51]
  objects := objects
  typeOf := fun n => (typeTable.find n).getD (.other 0)
  value := valueTable.find
  callee := calleeTable.find
  uses := usesTable.find
  selection := selectionTable.find
  pkgName := pkgNameTable.find
  funcObj := fun f => ((declTable.find f).map (·.obj)).getD 0
  implError := fun t => has implErrorTable t
  implCode := fun t => has implCodeTable t
  sigResults := fun n => ((sigTable.find n).map (·.2.2)).getD 0
  methodSet := fun t name => ((typeKey t).bind methodSetTable.find).bind fun l => lookup name l
  functions := fun _ => none
  methods := fun _ => []
  comments := fun n => ((commentTable.find n).getD []).map CommentText.text
  isPrint := fun r => 32 ≤ r && r < 127
  facts := merge (merge (noFacts) (Check.factsOf interfacesInner1.result)) (Check.factsOf interfacesInner2.result)
/-- The package. -/
def package : Package where
  env := env
  decls := ⟨fun f => ((declTable.find f).map (·.name)).getD [], fun f => ((declTable.find f).map (·.exported)).getD false,
    fun f => (declTable.find f).bind (·.recv), fun f => (declTable.find f).bind (·.doc), fun t => has implCauseTable t,
    fun f => ((declTable.find f).map (·.pos)).getD 0⟩
  types := ⟨fun f => (((declTable.find f).bind (·.recv)).bind typeTable.find).getD (.other 0),
    fun f => ((declTable.find f).map (·.recvNames)).getD [], fun o => (interfaceTable.find o).isSome,
    fun o => (methodNameTable.find o).getD []⟩
  funcs := [0, 1, 2, 3, 4, 5, 6, 7, 8, 9, 10, 11, 12, 13, 14, 15, 16, 17, 18, 19, 20, 21, 22, 23, 24, 25, 26, 27, 28, 29, 30, 31, 33, 34, 35, 36,
  37, 38, 39, 40, 41, 42, 43, 44, 45, 46, 47, 48, 49, 50, 51]
  specs := [⟨8226, .named 861, none⟩, ⟨8260, .named 862, none⟩, ⟨8274, .named 863, none⟩, ⟨8358, .named 864, none⟩, ⟨8358, .named 865, none⟩, ⟨8358,
  .named 866, none⟩, ⟨8358, .named 867, none⟩, ⟨8358, .named 868, none⟩, ⟨8358, .named 869, none⟩, ⟨8358, .named 870, none⟩, ⟨8358, .named 871,
  none⟩, ⟨8436, .named 874, some []⟩, ⟨8436, .named 875, some []⟩, ⟨8436, .named 876, some []⟩, ⟨8613, .named 884, none⟩, ⟨8663, .named 888, some
  [[s25]]⟩, ⟨8787, .named 894, none⟩, ⟨8787, .named 895, none⟩, ⟨8787, .named 896, none⟩, ⟨8953, .named 897, some []⟩, ⟨8972, .named 898, none⟩,
  ⟨9416, .named 914, none⟩, ⟨9474, .named 916, none⟩, ⟨9483, .named 917, none⟩, ⟨9569, .named 919, some [[s50]]⟩, ⟨9585, .named 920, some [[s33,
  s33], [s33], [s33, s33]]⟩, ⟨9598, .named 921, some [[s42, s43], [s35, s37]]⟩, ⟨9861, .named 923, none⟩, ⟨9865, .named 924, none⟩, ⟨10036, .named
  926, none⟩, ⟨10040, .named 927, none⟩, ⟨10218, .named 929, none⟩, ⟨10222, .named 930, none⟩, ⟨10663, .named 933, none⟩, ⟨10663, .named 934, none⟩,
  ⟨10663, .named 935, none⟩, ⟨10663, .named 936, none⟩, ⟨10663, .named 937, none⟩, ⟨10663, .named 938, none⟩, ⟨10663, .named 939, none⟩, ⟨10838,
  .named 941, none⟩, ⟨10995, .named 943, none⟩, ⟨10995, .named 944, some []⟩, ⟨11126, .named 949, none⟩, ⟨11126, .named 950, none⟩, ⟨11126, .named
  951, none⟩, ⟨11126, .named 952, some [[s33], [s33]]⟩, ⟨11126, .named 953, some []⟩, ⟨11126, .named 954, some []⟩]
  ifaces := [⟨s64, 861, .interface 78, [.method ⟨8222, ⟨8216, s21, (some 1)⟩, ⟨[], (some [⟨[], 8218⟩]), 427⟩, some (CommentText.text [s148, s134,
  s133, s134, s139, s149])⟩]⟩, ⟨s154, 862, .interface 99, [.method ⟨8234, ⟨8228, s3, (some 3)⟩, ⟨[], (some [⟨[], 8230⟩]), 837⟩, some
  (CommentText.text [s150, s134, s133, s134, s139, s136])⟩, .method ⟨8245, ⟨8235, s4, (some 4)⟩, ⟨[⟨[⟨8236, s5, (some 5)⟩, ⟨8237, s6, (some 6)⟩],
  8238⟩], (some [⟨[], 8241⟩]), 1056⟩, some (CommentText.text [s133, s134, s151, s138])⟩, .method ⟨8256, ⟨8246, s120, (some 7)⟩, ⟨[⟨[⟨8247, s5, (some
  8)⟩, ⟨8248, s6, (some 9)⟩], 8249⟩], (some [⟨[], 8252⟩]), 1301⟩, some (CommentText.text [s152, s153])⟩]⟩, ⟨s155, 863, .interface 96, [.method
  ⟨8270, ⟨8262, s117, (some 11)⟩, ⟨[], (some [⟨[], 8264⟩, ⟨[], 8265⟩]), 1365⟩, none⟩]⟩, ⟨s156, 864, .interface 78, [.embedded (.name 8276 s64)]⟩,
  ⟨s159, 865, .interface 100, [.embedded (.name 8282 s64), .embedded (.name 8284 s157), .embedded (.name 8286 s158)]⟩, ⟨s160, 866, .interface 78,
  [.embedded (.name 8292 s64), .embedded (.qualified 8296)]⟩, ⟨s161, 867, .interface 78, [.embedded (.name 8302 s64), .embedded (.qualified 8306)]⟩,
  ⟨s162, 868, .interface 78, [.embedded (.qualified 8314), .embedded (.qualified 8318)]⟩, ⟨s157, 869, .interface 78, [.method ⟨8330, ⟨8324, s21,
  (some 19)⟩, ⟨[], (some [⟨[], 8326⟩]), 3111⟩, some (CommentText.text [s133, s134, s149, s151])⟩]⟩, ⟨s158, 870, .interface 90, [.method ⟨8341,
  ⟨8335, s115, (some 20)⟩, ⟨[], (some [⟨[], 8337⟩]), 3359⟩, some (CommentText.text [s133, s134, s163])⟩]⟩, ⟨s164, 871, .interface 78, [.embedded
  (.name 8346 s64), .method ⟨8354, ⟨8348, s21, (some 22)⟩, ⟨[], (some [⟨[], 8350⟩]), 3907⟩, some (CommentText.text [s133, s134, s139, s151])⟩]⟩,
  ⟨s165, 884, .interface 86, [.method ⟨8579, ⟨8573, s23, (some 42)⟩, ⟨[], (some [⟨[], 8575⟩]), 6546⟩, none⟩, .method ⟨8586, ⟨8580, s26, (some 43)⟩,
  ⟨[], (some [⟨[], 8582⟩]), 6564⟩, none⟩, .method ⟨8595, ⟨8587, s27, (some 44)⟩, ⟨[], (some [⟨[], 8591⟩]), 6582⟩, none⟩, .method ⟨8602, ⟨8596, s28,
  (some 45)⟩, ⟨[], (some [⟨[], 8598⟩]), 6609⟩, none⟩, .method ⟨8609, ⟨8603, s29, (some 46)⟩, ⟨[], (some [⟨[], 8605⟩]), 6624⟩, none⟩]⟩, ⟨s166, 894,
  .interface 100, [.embedded (.name 8759 s64), .embedded (.name 8761 s157), .embedded (.name 8763 s158)]⟩, ⟨s167, 895, .interface 78, [.embedded
  (.name 8769 s64)]⟩, ⟨s168, 896, .interface 78, [.embedded (.name 8775 s64), .method ⟨8783, ⟨8777, s21, (some 61)⟩, ⟨[], (some [⟨[], 8779⟩]),
  8684⟩, some (CommentText.text [s133, s134, s139, s151])⟩]⟩, ⟨s169, 898, .interface 98, [.method ⟨8961, ⟨8955, s118, (some 64)⟩, ⟨[], (some [⟨[],
  8957⟩]), 8920⟩, none⟩, .method ⟨8968, ⟨8962, s119, (some 65)⟩, ⟨[], (some [⟨[], 8964⟩]), 9036⟩, none⟩]⟩, ⟨s173, 916, .interface 78, [.method
  ⟨9470, ⟨9464, s21, (some 121)⟩, ⟨[], (some [⟨[], 9466⟩]), 17139⟩, some (CommentText.text [s148, s134, s133, s134, s170, s171, s172])⟩]⟩, ⟨s68,
  917, .interface 92, [.method ⟨9479, ⟨9476, s116, (some 123)⟩, ⟨[], none, 0⟩, none⟩]⟩, ⟨s178, 943, .interface 95, [.method ⟨10973, ⟨10967, s88,
  (some 206)⟩, ⟨[], (some [⟨[], 10969⟩]), 44969⟩, some (CommentText.text [s133, s134, s174, s175])⟩, .method ⟨10980, ⟨10974, s89, (some 207)⟩, ⟨[],
  (some [⟨[], 10976⟩]), 45116⟩, some (CommentText.text [s133, s134, s176, s177])⟩, .method ⟨10987, ⟨10981, s90, (some 208)⟩, ⟨[], (some [⟨[],
  10983⟩]), 45191⟩, none⟩]⟩, ⟨s180, 949, .interface 91, [.method ⟨11082, ⟨11076, s93, (some 213)⟩, ⟨[], (some [⟨[], 11078⟩]), 46262⟩, some
  (CommentText.text [s179])⟩]⟩, ⟨s181, 950, .interface 97, [.method ⟨11093, ⟨11087, s94, (some 215)⟩, ⟨[], (some [⟨[], 11089⟩]), 46385⟩, some
  (CommentText.text [s179])⟩]⟩, ⟨s182, 951, .interface 87, [.method ⟨11104, ⟨11098, s95, (some 217)⟩, ⟨[], (some [⟨[], 11100⟩]), 46508⟩, some
  (CommentText.text [s179])⟩]⟩]
  methodObj := fun n => (methodObjTable.find n).getD 0
  conv := ⟨fun o => (underlyingTable.find o).getD (.other 0), fun n => ((sigTable.find n).map (·.1)).getD [],
    fun n => ((sigTable.find n).map (·.2.1)).getD false, fun n => (tupleTable.find n).getD [], fun n => (structTable.find n).getD [],
    fun t n => ((implTable.find n).map fun tr => has tr t).getD false⟩
  top := [
    .node (.other 8214 [.other 8211 [.basicLit 8210], .other 8213 [.basicLit 8212]]),
    .node (.other 8226 [.other 8225 [.ident ⟨8215, s64, (some 0)⟩, .other 8224 [.other 8223 [.other 8222 [.ident ⟨8216, s21, (some 1)⟩, .other 8221
  [.other 8217 [], .other 8220 [.other 8219 [.ident ⟨8218, s183, none⟩]]]]]]]]),
    .node (.other 8260 [.other 8259 [.ident ⟨8227, s154, (some 2)⟩, .other 8258 [.other 8257 [.other 8234 [.ident ⟨8228, s3, (some 3)⟩, .other 8233
  [.other 8229 [], .other 8232 [.other 8231 [.ident ⟨8230, s183, none⟩]]]], .other 8245 [.ident ⟨8235, s4, (some 4)⟩, .other 8244 [.other 8240
  [.other 8239 [.ident ⟨8236, s5, (some 5)⟩, .ident ⟨8237, s6, (some 6)⟩, .ident ⟨8238, s184, none⟩]], .other 8243 [.other 8242 [.ident ⟨8241, s183,
  none⟩]]]], .other 8256 [.ident ⟨8246, s120, (some 7)⟩, .other 8255 [.other 8251 [.other 8250 [.ident ⟨8247, s5, (some 8)⟩, .ident ⟨8248, s6, (some
  9)⟩, .ident ⟨8249, s184, none⟩]], .other 8254 [.other 8253 [.ident ⟨8252, s184, none⟩]]]]]]]]),
    .node (.other 8274 [.other 8273 [.ident ⟨8261, s155, (some 10)⟩, .other 8272 [.other 8271 [.other 8270 [.ident ⟨8262, s117, (some 11)⟩, .other
  8269 [.other 8263 [], .other 8268 [.other 8266 [.ident ⟨8264, s183, none⟩], .other 8267 [.ident ⟨8265, s184, none⟩]]]]]]]]),
    .node (.other 8358 [.other 8280 [.ident ⟨8275, s156, (some 12)⟩, .other 8279 [.other 8278 [.other 8277 [.ident ⟨8276, s64, (some 0)⟩]]]], .other
  8290 [.ident ⟨8281, s159, (some 13)⟩, .other 8289 [.other 8288 [.other 8283 [.ident ⟨8282, s64, (some 0)⟩], .other 8285 [.ident ⟨8284, s157, (some
  14)⟩], .other 8287 [.ident ⟨8286, s158, (some 15)⟩]]]], .other 8300 [.ident ⟨8291, s160, (some 16)⟩, .other 8299 [.other 8298 [.other 8293 [.ident
  ⟨8292, s64, (some 0)⟩], .other 8297 [.selector 8296 (.ident ⟨8294, s16, none⟩) ⟨8295, s64, none⟩]]]], .other 8310 [.ident ⟨8301, s161, (some 17)⟩,
  .other 8309 [.other 8308 [.other 8303 [.ident ⟨8302, s64, (some 0)⟩], .other 8307 [.selector 8306 (.ident ⟨8304, s16, none⟩) ⟨8305, s173,
  none⟩]]]], .other 8322 [.ident ⟨8311, s162, (some 18)⟩, .other 8321 [.other 8320 [.other 8315 [.selector 8314 (.ident ⟨8312, s16, none⟩) ⟨8313,
  s64, none⟩], .other 8319 [.selector 8318 (.ident ⟨8316, s16, none⟩) ⟨8317, s173, none⟩]]]], .other 8333 [.ident ⟨8323, s157, (some 14)⟩, .other
  8332 [.other 8331 [.other 8330 [.ident ⟨8324, s21, (some 19)⟩, .other 8329 [.other 8325 [], .other 8328 [.other 8327 [.ident ⟨8326, s183,
  none⟩]]]]]]], .other 8344 [.ident ⟨8334, s158, (some 15)⟩, .other 8343 [.other 8342 [.other 8341 [.ident ⟨8335, s115, (some 20)⟩, .other 8340
  [.other 8336 [], .other 8339 [.other 8338 [.ident ⟨8337, s183, none⟩]]]]]]], .other 8357 [.ident ⟨8345, s164, (some 21)⟩, .other 8356 [.other 8355
  [.other 8347 [.ident ⟨8346, s64, (some 0)⟩], .other 8354 [.ident ⟨8348, s21, (some 22)⟩, .other 8353 [.other 8349 [], .other 8352 [.other 8351
  [.ident ⟨8350, s183, none⟩]]]]]]]]),
    .func 0,
    .func 1,
    .node (.other 8436 [.other 8427 [.ident ⟨8424, s185, (some 30)⟩, .other 8426 [.other 8425 []]], .other 8431 [.ident ⟨8428, s186, (some 31)⟩,
  .other 8430 [.other 8429 []]], .other 8435 [.ident ⟨8432, s187, (some 32)⟩, .other 8434 [.other 8433 []]]]),
    .func 2,
    .func 3,
    .func 4,
    .func 5,
    .func 6,
    .func 7,
    .func 8,
    .node (.other 8613 [.other 8612 [.ident ⟨8572, s165, (some 41)⟩, .other 8611 [.other 8610 [.other 8579 [.ident ⟨8573, s23, (some 42)⟩, .other
  8578 [.other 8574 [], .other 8577 [.other 8576 [.ident ⟨8575, s184, none⟩]]]], .other 8586 [.ident ⟨8580, s26, (some 43)⟩, .other 8585 [.other
  8581 [], .other 8584 [.other 8583 [.ident ⟨8582, s184, none⟩]]]], .other 8595 [.ident ⟨8587, s27, (some 44)⟩, .other 8594 [.other 8588 [], .other
  8593 [.other 8592 [.other 8591 [.ident ⟨8589, s184, none⟩, .ident ⟨8590, s184, none⟩]]]]], .other 8602 [.ident ⟨8596, s28, (some 45)⟩, .other 8601
  [.other 8597 [], .other 8600 [.other 8599 [.ident ⟨8598, s183, none⟩]]]], .other 8609 [.ident ⟨8603, s29, (some 46)⟩, .other 8608 [.other 8604 [],
  .other 8607 [.other 8606 [.ident ⟨8605, s184, none⟩]]]]]]]]),
    .func 9,
    .func 10,
    .func 11,
    .node (.other 8663 [.other 8662 [.ident ⟨8656, s29, (some 33)⟩, .other 8661 [.other 8660 [.other 8659 [.ident ⟨8657, s25, (some 52)⟩, .ident
  ⟨8658, s184, none⟩]]]]]),
    .func 12,
    .func 13,
    .func 14,
    .func 15,
    .func 16,
    .node (.other 8787 [.other 8767 [.ident ⟨8758, s166, (some 58)⟩, .other 8766 [.other 8765 [.other 8760 [.ident ⟨8759, s64, none⟩], .other 8762
  [.ident ⟨8761, s157, none⟩], .other 8764 [.ident ⟨8763, s158, none⟩]]]], .other 8773 [.ident ⟨8768, s167, (some 59)⟩, .other 8772 [.other 8771
  [.other 8770 [.ident ⟨8769, s64, none⟩]]]], .other 8786 [.ident ⟨8774, s168, (some 60)⟩, .other 8785 [.other 8784 [.other 8776 [.ident ⟨8775, s64,
  none⟩], .other 8783 [.ident ⟨8777, s21, (some 61)⟩, .other 8782 [.other 8778 [], .other 8781 [.other 8780 [.ident ⟨8779, s183, none⟩]]]]]]]]),
    .node (.other 8953 [.other 8952 [.ident ⟨8949, s188, (some 62)⟩, .other 8951 [.other 8950 []]]]),
    .node (.other 8972 [.other 8971 [.ident ⟨8954, s169, (some 63)⟩, .other 8970 [.other 8969 [.other 8961 [.ident ⟨8955, s118, (some 64)⟩, .other
  8960 [.other 8956 [], .other 8959 [.other 8958 [.ident ⟨8957, s183, none⟩]]]], .other 8968 [.ident ⟨8962, s119, (some 65)⟩, .other 8967 [.other
  8963 [], .other 8966 [.other 8965 [.ident ⟨8964, s183, none⟩]]]]]]]]),
    .func 17,
    .func 18,
    .func 19,
    .func 20,
    .func 21,
    .func 22,
    .func 23,
    .func 24,
    .func 25,
    .func 26,
    .func 27,
    .func 28,
    .func 29,
    .func 30,
    .func 31,
    .node (.other 9416 [.other 9415 [.ident ⟨9410, s189, (some 115)⟩, .other 9414 [.ident ⟨9411, s64, none⟩, .other 9413 [.other 9412 []]]]]),
    .func 33,
    .node (.other 9474 [.other 9473 [.ident ⟨9463, s173, (some 120)⟩, .other 9472 [.other 9471 [.other 9470 [.ident ⟨9464, s21, (some 121)⟩, .other
  9469 [.other 9465 [], .other 9468 [.other 9467 [.ident ⟨9466, s183, none⟩]]]]]]]]),
    .node (.other 9483 [.other 9482 [.ident ⟨9475, s68, (some 122)⟩, .other 9481 [.other 9480 [.other 9479 [.ident ⟨9476, s116, (some 123)⟩, .other
  9478 [.other 9477 []]]]]]]),
    .func 34,
    .node (.other 9569 [.other 9568 [.ident ⟨9562, s190, (some 131)⟩, .other 9567 [.other 9566 [.other 9565 [.ident ⟨9563, s50, (some 132)⟩, .ident
  ⟨9564, s64, none⟩]]]]]),
    .node (.other 9585 [.other 9584 [.ident ⟨9570, s191, (some 133)⟩, .other 9583 [.other 9582 [.other 9574 [.ident ⟨9571, s33, (some 134)⟩, .ident
  ⟨9572, s33, (some 135)⟩, .ident ⟨9573, s192, none⟩], .other 9577 [.ident ⟨9575, s33, (some 136)⟩, .ident ⟨9576, s64, none⟩], .other 9581 [.ident
  ⟨9578, s33, (some 137)⟩, .ident ⟨9579, s33, (some 138)⟩, .ident ⟨9580, s64, none⟩]]]]]),
    .node (.other 9598 [.other 9597 [.ident ⟨9586, s193, (some 139)⟩, .other 9596 [.other 9595 [.other 9590 [.ident ⟨9587, s42, (some 140)⟩, .ident
  ⟨9588, s43, (some 141)⟩, .ident ⟨9589, s192, none⟩], .other 9594 [.ident ⟨9591, s35, (some 142)⟩, .ident ⟨9592, s37, (some 143)⟩, .ident ⟨9593,
  s64, none⟩]]]]]),
    .func 35,
    .node (.other 9861 [.other 9860 [.ident ⟨9857, s194, (some 151)⟩, .other 9859 [.ident ⟨9858, s64, none⟩]]]),
    .node (.other 9865 [.other 9864 [.ident ⟨9862, s195, (some 152)⟩, .ident ⟨9863, s194, (some 151)⟩]]),
    .func 36,
    .node (.other 10036 [.other 10035 [.ident ⟨10031, s196, (some 155)⟩, .other 10034 [.basicLit 10032, .ident ⟨10033, s64, none⟩]]]),
    .node (.other 10040 [.other 10039 [.ident ⟨10037, s197, (some 156)⟩, .ident ⟨10038, s194, (some 151)⟩]]),
    .func 37,
    .node (.other 10218 [.other 10217 [.ident ⟨10213, s198, (some 159)⟩, .other 10216 [.ident ⟨10214, s192, none⟩, .ident ⟨10215, s64, none⟩]]]),
    .node (.other 10222 [.other 10221 [.ident ⟨10219, s199, (some 160)⟩, .ident ⟨10220, s194, (some 151)⟩]]),
    .func 38,
    .func 39,
    .node (.other 10663 [.other 10631 [.ident ⟨10628, s200, (some 176)⟩, .other 10630 [.ident ⟨10629, s188, (some 62)⟩]], .other 10637 [.ident
  ⟨10632, s201, (some 177)⟩, .other 10636 [.ident ⟨10633, s188, (some 62)⟩, .other 10635 [.other 10634 []]]], .other 10642 [.ident ⟨10638, s202,
  (some 178)⟩, .other 10641 [.ident ⟨10639, s184, none⟩, .ident ⟨10640, s188, (some 62)⟩]], .other 10647 [.ident ⟨10643, s203, (some 179)⟩, .other
  10646 [.ident ⟨10644, s188, (some 62)⟩, .ident ⟨10645, s188, (some 62)⟩]], .other 10652 [.ident ⟨10648, s204, (some 180)⟩, .other 10651 [.basicLit
  10649, .ident ⟨10650, s188, (some 62)⟩]], .other 10658 [.ident ⟨10653, s205, (some 181)⟩, .other 10657 [.other 10656 [.basicLit 10654, .ident
  ⟨10655, s188, (some 62)⟩]]], .other 10662 [.ident ⟨10659, s206, (some 182)⟩, .other 10661 [.ident ⟨10660, s188, (some 62)⟩]]]),
    .func 40,
    .node (.other 10838 [.other 10837 [.ident ⟨10834, s207, (some 198)⟩, .other 10836 [.ident ⟨10835, s64, none⟩]]]),
    .func 41,
    .node (.other 10995 [.other 10990 [.ident ⟨10966, s178, (some 205)⟩, .other 10989 [.other 10988 [.other 10973 [.ident ⟨10967, s88, (some 206)⟩,
  .other 10972 [.other 10968 [], .other 10971 [.other 10970 [.ident ⟨10969, s183, none⟩]]]], .other 10980 [.ident ⟨10974, s89, (some 207)⟩, .other
  10979 [.other 10975 [], .other 10978 [.other 10977 [.ident ⟨10976, s183, none⟩]]]], .other 10987 [.ident ⟨10981, s90, (some 208)⟩, .other 10986
  [.other 10982 [], .other 10985 [.other 10984 [.ident ⟨10983, s183, none⟩]]]]]]], .other 10994 [.ident ⟨10991, s208, (some 209)⟩, .other 10993
  [.other 10992 []]]]),
    .func 42,
    .func 43,
    .func 44,
    .func 45,
    .node (.other 11126 [.other 11085 [.ident ⟨11075, s180, (some 212)⟩, .other 11084 [.other 11083 [.other 11082 [.ident ⟨11076, s93, (some 213)⟩,
  .other 11081 [.other 11077 [], .other 11080 [.other 11079 [.ident ⟨11078, s183, none⟩]]]]]]], .other 11096 [.ident ⟨11086, s181, (some 214)⟩,
  .other 11095 [.other 11094 [.other 11093 [.ident ⟨11087, s94, (some 215)⟩, .other 11092 [.other 11088 [], .other 11091 [.other 11090 [.ident
  ⟨11089, s183, none⟩]]]]]]], .other 11107 [.ident ⟨11097, s182, (some 216)⟩, .other 11106 [.other 11105 [.other 11104 [.ident ⟨11098, s95, (some
  217)⟩, .other 11103 [.other 11099 [], .other 11102 [.other 11101 [.ident ⟨11100, s183, none⟩]]]]]]], .other 11117 [.ident ⟨11108, s209, (some
  218)⟩, .other 11116 [.other 11115 [.other 11111 [.ident ⟨11109, s33, (some 219)⟩, .ident ⟨11110, s184, none⟩], .other 11114 [.ident ⟨11112, s33,
  (some 220)⟩, .ident ⟨11113, s181, (some 214)⟩]]]], .other 11121 [.ident ⟨11118, s210, (some 221)⟩, .other 11120 [.other 11119 []]], .other 11125
  [.ident ⟨11122, s211, (some 222)⟩, .other 11124 [.other 11123 []]]]),
    .func 46,
    .func 47,
    .func 48,
    .func 49,
    .func 50,
    .func 51]
/-- The run, in one order. -/
def result : Except Stop Outcome := runVerify package Check.source true
/-- What is expected.  The comments in the package say (with facts as `object: fact`):
```
interfaces.go:8: SimpleInterface: ErrorInterface: SimpleInterfaceMethod
interfaces.go:15: SimpleInterfaceMethod: ErrorCodes: interface-1-error interface-2-error
interfaces.go:18: SomeInterface: ErrorInterface: InterfaceMethod1 InterfaceMethod2
interfaces.go:25: InterfaceMethod1: ErrorCodes: interface-1-error interface-2-error
interfaces.go:31: InterfaceMethod2: ErrorCodes: interface-3-error interface-4-error
interfaces.go:39: error should be returned as the last argument
interfaces.go:43: EmbeddedSimpleInterface: ErrorInterface: SimpleInterfaceMethod
interfaces.go:47: EmbeddedMultipleInterfaces: ErrorInterface: OtherMethod SimpleInterfaceMethod
interfaces.go:49: embedded interface is not compatible: method "SimpleInterfaceMethod" has mismatches in declared error codes: missing codes: \[interface-1-error] unused codes: \[interface-3-error]
interfaces.go:53: EmbeddedOtherPackage: ErrorInterface: SimpleInterfaceMethod
interfaces.go:58: EmbeddedOtherPackage2: ErrorInterface: SimpleInterfaceMethod
interfaces.go:60: embedded interface is not compatible: method "SimpleInterfaceMethod" has mismatches in declared error codes: missing codes: \[interface-1-error interface-2-error] unused codes: \[inner1-error]
interfaces.go:63: EmbeddedOtherPackage3: ErrorInterface: SimpleInterfaceMethod
interfaces.go:65: embedded interface is not compatible: method "SimpleInterfaceMethod" has mismatches in declared error codes: missing codes: \[interface-1-error interface-2-error] unused codes: \[inner1-error]
interfaces.go:68: SimpleInterface2: ErrorInterface: SimpleInterfaceMethod
interfaces.go:73: SimpleInterfaceMethod: ErrorCodes: interface-2-error interface-3-error
interfaces.go:76: OtherSimpleInterface: ErrorInterface: OtherMethod
interfaces.go:80: OtherMethod: ErrorCodes: interface-5-error
interfaces.go:83: EmbeddedSimpleInterface2: ErrorInterface: SimpleInterfaceMethod
interfaces.go:84: embedded interface is not compatible: method "SimpleInterfaceMethod" has mismatches in declared error codes: missing codes: \[interface-3-error] unused codes: \[interface-2-error]
interfaces.go:90: SimpleInterfaceMethod: ErrorCodes: interface-1-error interface-3-error
interfaces.go:100: InterfaceParam: ErrorCodes: interface-1-error interface-2-error interface-3-error interface-4-error
interfaces.go:113: OuterFunction: ErrorCodes: interface-1-error interface-2-error interface-3-error interface-4-error
interfaces.go:129: Inner1Method1: ErrorCodes: interface-1-error
interfaces.go:136: Inner1Method2: ErrorCodes: interface-3-error
interfaces.go:147: Inner1CodeNotDeclared: ErrorCodes: interface-1-error
interfaces.go:151: function "Inner1NoCodes" is exported, but does not declare any error codes
interfaces.go:159: Inner1YesCodes: ErrorCodes: interface-1-error interface-2-error
interfaces.go:172: UsingExternalImplAsExternalInterface: ErrorCodes: interface-1-error interface-2-error interface-3-error interface-4-error
interfaces.go:187: ReturnReeError: ErrorCodes: ree-error
interfaces.go:195: CallEmbeddedInterface: ErrorCodes: interface-1-error interface-2-error
interfaces.go:203: Error: ErrorType{Field:{Name:"TheCode", Position:0}, Codes:}
interfaces_multifile.go:5: EmbeddedMultipleInterfaces2: ErrorInterface: OtherMethod SimpleInterfaceMethod
interfaces_multifile.go:7: embedded interface is not compatible: method "SimpleInterfaceMethod" has mismatches in declared error codes: missing codes: \[interface-1-error] unused codes: \[interface-3-error]
interfaces_multifile.go:11: EmbeddedSimpleInterfaceOtherFile: ErrorInterface: SimpleInterfaceMethod
interfaces_multifile.go:15: EmbeddedSimpleInterface2OtherFile: ErrorInterface: SimpleInterfaceMethod
interfaces_multifile.go:16: embedded interface is not compatible: method "SimpleInterfaceMethod" has mismatches in declared error codes: missing codes: \[interface-3-error] unused codes: \[interface-2-error]
interfaces_multifile.go:22: SimpleInterfaceMethod: ErrorCodes: interface-1-error interface-3-error
invalid.go:6: interface method "ExportedCodeNotDeclared" does not declare any error codes
invalid.go:7: interface method "localCodeNotDeclared" does not declare any error codes
invalid.go:16: SimpleInterfaceMethod: ErrorCodes: unknown-error
invalid.go:21: cannot use expression as "SimpleInterface" value: method "SimpleInterfaceMethod" declares the following error codes which were not part of the interface: \[unknown-error]
invalid.go:25: cannot use expression as "SimpleInterface" value: method "SimpleInterfaceMethod" declares the following error codes which were not part of the interface: \[unknown-error]
invalid.go:29: cannot use expression as "SimpleInterface" value: method "SimpleInterfaceMethod" declares the following error codes which were not part of the interface: \[unknown-error]
invalid.go:34: cannot use expression as "SimpleInterface" value: method "SimpleInterfaceMethod" declares the following error codes which were not part of the interface: \[unknown-error]
invalid.go:41: cannot use expression as "SimpleInterface" value: method "SimpleInterfaceMethod" declares the following error codes which were not part of the interface: \[unknown-error]
invalid.go:48: cannot use expression as "SimpleInterface" value: method "SimpleInterfaceMethod" declares the following error codes which were not part of the interface: \[unknown-error]
invalid.go:58: cannot use expression as "SimpleInterface" value: method "SimpleInterfaceMethod" declares the following error codes which were not part of the interface: \[unknown-error]
invalid.go:62: cannot use expression as "SimpleInterface" value: method "SimpleInterfaceMethod" declares the following error codes which were not part of the interface: \[unknown-error]
invalid.go:62: cannot use expression as "SimpleInterface" value: method "SimpleInterfaceMethod" declares the following error codes which were not part of the interface: \[unknown-error]
invalid.go:70: cannot use expression as "SimpleInterface" value: method "SimpleInterfaceMethod" declares the following error codes which were not part of the interface: \[unknown-error]
invalid.go:71: cannot use expression as "SimpleInterface" value: method "SimpleInterfaceMethod" declares the following error codes which were not part of the interface: \[unknown-error]
invalid.go:72: cannot use expression as "SimpleInterface" value: method "SimpleInterfaceMethod" declares the following error codes which were not part of the interface: \[unknown-error]
invalid.go:72: cannot use expression as "SimpleInterface" value: method "SimpleInterfaceMethod" declares the following error codes which were not part of the interface: \[unknown-error]
invalid.go:82: cannot use expression as "SimpleInterface" value: method "SimpleInterfaceMethod" declares the following error codes which were not part of the interface: \[unknown-error]
invalid.go:85: cannot use expression as "SimpleInterface" value: method "SimpleInterfaceMethod" declares the following error codes which were not part of the interface: \[unknown-error]
invalid.go:89: cannot use expression as "SimpleInterface" value: method "SimpleInterfaceMethod" declares the following error codes which were not part of the interface: \[unknown-error]
invalid.go:93: cannot use expression as "SimpleInterface" value: method "SimpleInterfaceMethod" declares the following error codes which were not part of the interface: \[unknown-error]
invalid.go:107: cannot use expression as "SimpleInterface" value: method "SimpleInterfaceMethod" declares the following error codes which were not part of the interface: \[unknown-error]
invalid.go:109: cannot use expression as "SimpleInterface" value: method "SimpleInterfaceMethod" declares the following error codes which were not part of the interface: \[unknown-error]
invalid.go:110: cannot use expression as "SimpleInterface" value: method "SimpleInterfaceMethod" declares the following error codes which were not part of the interface: \[unknown-error]
invalid.go:118: cannot use expression as "SimpleInterface" value: method "SimpleInterfaceMethod" declares the following error codes which were not part of the interface: \[unknown-error]
invalid.go:119: cannot use expression as "SimpleInterface" value: method "SimpleInterfaceMethod" declares the following error codes which were not part of the interface: \[unknown-error]
invalid.go:123: cannot use expression as "SimpleInterface" value: method "SimpleInterfaceMethod" declares the following error codes which were not part of the interface: \[unknown-error]
invalid.go:133: cannot use expression as "SimpleInterface" value: method "SimpleInterfaceMethod" declares the following error codes which were not part of the interface: \[unknown-error]
invalid.go:135: cannot use expression as "SimpleInterface" value: method "SimpleInterfaceMethod" declares the following error codes which were not part of the interface: \[unknown-error]
invalid.go:140: SimpleInterfaceIncompatible: ErrorInterface: SimpleInterfaceMethod
invalid.go:148: SimpleInterfaceMethod: ErrorCodes: incompatible-1-error incompatible-2-error interface-1-error
invalid.go:156: cannot use expression as "SimpleInterface" value: method "SimpleInterfaceMethod" declares the following error codes which were not part of the interface: \[unknown-error]
invalid.go:158: cannot use expression as "SimpleInterface" value: method "SimpleInterfaceMethod" declares the following error codes which were not part of the interface: \[incompatible-1-error incompatible-2-error]
invalid.go:159: cannot use expression as "SimpleInterface" value: method "SimpleInterfaceMethod" declares the following error codes which were not part of the interface: \[incompatible-1-error incompatible-2-error]
invalid.go:160: cannot use expression as "SimpleInterface" value: method "SimpleInterfaceMethod" declares the following error codes which were not part of the interface: \[incompatible-1-error incompatible-2-error]
invalid.go:168: cannot use expression as "SimpleInterface" value: method "SimpleInterfaceMethod" declares the following error codes which were not part of the interface: \[incompatible-1-error incompatible-2-error]
invalid.go:192: cannot use expression as "SimpleInterface" value: method "SimpleInterfaceMethod" declares the following error codes which were not part of the interface: \[unknown-error]
invalid.go:194: cannot use expression as "SimpleInterface" value: method "SimpleInterfaceMethod" declares the following error codes which were not part of the interface: \[unknown-error]
invalid.go:197: cannot use expression as "SimpleInterface" value: method "SimpleInterfaceMethod" declares the following error codes which were not part of the interface: \[unknown-error]
invalid.go:199: cannot use expression as "SimpleInterface" value: method "SimpleInterfaceMethod" declares the following error codes which were not part of the interface: \[unknown-error]
invalid.go:200: cannot use expression as "SimpleInterface" value: method "SimpleInterfaceMethod" declares the following error codes which were not part of the interface: \[unknown-error]
invalid.go:201: cannot use expression as "SimpleInterface" value: method "SimpleInterfaceMethod" declares the following error codes which were not part of the interface: \[unknown-error]
invalid.go:201: cannot use expression as "SimpleInterface" value: method "SimpleInterfaceMethod" declares the following error codes which were not part of the interface: \[unknown-error]
invalid.go:201: cannot use expression as "SimpleInterface" value: method "SimpleInterfaceMethod" declares the following error codes which were not part of the interface: \[unknown-error]
invalid.go:209: cannot use expression as "SimpleInterface" value: method "SimpleInterfaceMethod" declares the following error codes which were not part of the interface: \[unknown-error]
invalid.go:210: cannot use expression as "SimpleInterface" value: method "SimpleInterfaceMethod" declares the following error codes which were not part of the interface: \[unknown-error]
invalid.go:211: cannot use expression as "SimpleInterface" value: method "SimpleInterfaceMethod" declares the following error codes which were not part of the interface: \[unknown-error]
invalid.go:215: cannot use expression as "SimpleInterface" value: method "SimpleInterfaceMethod" declares the following error codes which were not part of the interface: \[unknown-error]
invalid.go:216: cannot use expression as "SimpleInterface" value: method "SimpleInterfaceMethod" declares the following error codes which were not part of the interface: \[unknown-error]
invalid.go:222: cannot use expression as "SimpleInterface" value: method "SimpleInterfaceMethod" declares the following error codes which were not part of the interface: \[unknown-error]
invalid.go:223: cannot use expression as "SimpleInterface" value: method "SimpleInterfaceMethod" declares the following error codes which were not part of the interface: \[unknown-error]
invalid.go:229: cannot use expression as "SimpleInterface" value: method "SimpleInterfaceMethod" declares the following error codes which were not part of the interface: \[unknown-error]
invalid.go:230: cannot use expression as "SimpleInterface" value: method "SimpleInterfaceMethod" declares the following error codes which were not part of the interface: \[unknown-error]
invalid.go:237: cannot use expression as "SimpleInterface" value: method "SimpleInterfaceMethod" declares the following error codes which were not part of the interface: \[unknown-error]
invalid.go:238: cannot use expression as "SimpleInterface" value: method "SimpleInterfaceMethod" declares the following error codes which were not part of the interface: \[unknown-error]
invalid.go:251: cannot use expression as "SimpleInterface" value: method "SimpleInterfaceMethod" declares the following error codes which were not part of the interface: \[unknown-error]
invalid.go:254: cannot use expression as "SimpleInterface" value: method "SimpleInterfaceMethod" declares the following error codes which were not part of the interface: \[unknown-error]
invalid.go:257: cannot use expression as "SimpleInterface" value: method "SimpleInterfaceMethod" declares the following error codes which were not part of the interface: \[unknown-error]
invalid.go:263: cannot use expression as "SimpleInterface" value: method "SimpleInterfaceMethod" declares the following error codes which were not part of the interface: \[unknown-error]
invalid.go:266: cannot use expression as "SimpleInterface" value: method "SimpleInterfaceMethod" declares the following error codes which were not part of the interface: \[unknown-error]
invalid.go:267: cannot use expression as "SimpleInterface" value: method "SimpleInterfaceMethod" declares the following error codes which were not part of the interface: \[unknown-error]
invalid.go:272: cannot use expression as "SimpleInterface" value: method "SimpleInterfaceMethod" declares the following error codes which were not part of the interface: \[unknown-error]
invalid.go:273: cannot use expression as "SimpleInterface" value: method "SimpleInterfaceMethod" declares the following error codes which were not part of the interface: \[unknown-error]
invalid.go:277: cannot use expression as "SimpleInterface" value: method "SimpleInterfaceMethod" declares the following error codes which were not part of the interface: \[unknown-error]
invalid.go:278: cannot use expression as "SimpleInterface" value: method "SimpleInterfaceMethod" declares the following error codes which were not part of the interface: \[unknown-error]
invalid.go:282: cannot use expression as "SimpleInterface" value: method "SimpleInterfaceMethod" declares the following error codes which were not part of the interface: \[unknown-error]
invalid.go:288: cannot use expression as "SimpleInterface" value: method "SimpleInterfaceMethod" declares the following error codes which were not part of the interface: \[unknown-error]
invalid.go:289: cannot use expression as "SimpleInterface" value: method "SimpleInterfaceMethod" declares the following error codes which were not part of the interface: \[unknown-error]
invalid.go:292: cannot use expression as "SimpleInterface" value: method "SimpleInterfaceMethod" declares the following error codes which were not part of the interface: \[unknown-error]
invalid.go:301: cannot use expression as "SimpleInterface" value: method "SimpleInterfaceMethod" declares the following error codes which were not part of the interface: \[unknown-error]
invalid.go:304: cannot use expression as "SimpleInterface" value: method "SimpleInterfaceMethod" declares the following error codes which were not part of the interface: \[unknown-error]
invalid.go:307: cannot use expression as "SimpleInterface" value: method "SimpleInterfaceMethod" declares the following error codes which were not part of the interface: \[unknown-error]
invalid.go:313: cannot use expression as "SimpleInterface" value: method "SimpleInterfaceMethod" declares the following error codes which were not part of the interface: \[unknown-error]
invalid.go:316: cannot use expression as "SimpleInterface" value: method "SimpleInterfaceMethod" declares the following error codes which were not part of the interface: \[unknown-error]
invalid.go:317: cannot use expression as "SimpleInterface" value: method "SimpleInterfaceMethod" declares the following error codes which were not part of the interface: \[unknown-error]
invalid.go:322: cannot use expression as "SimpleInterface" value: method "SimpleInterfaceMethod" declares the following error codes which were not part of the interface: \[unknown-error]
invalid.go:323: cannot use expression as "SimpleInterface" value: method "SimpleInterfaceMethod" declares the following error codes which were not part of the interface: \[unknown-error]
invalid.go:327: cannot use expression as "SimpleInterface" value: method "SimpleInterfaceMethod" declares the following error codes which were not part of the interface: \[unknown-error]
invalid.go:328: cannot use expression as "SimpleInterface" value: method "SimpleInterfaceMethod" declares the following error codes which were not part of the interface: \[unknown-error]
invalid.go:332: cannot use expression as "SimpleInterface" value: method "SimpleInterfaceMethod" declares the following error codes which were not part of the interface: \[unknown-error]
invalid.go:338: cannot use expression as "SimpleInterface" value: method "SimpleInterfaceMethod" declares the following error codes which were not part of the interface: \[unknown-error]
invalid.go:339: cannot use expression as "SimpleInterface" value: method "SimpleInterfaceMethod" declares the following error codes which were not part of the interface: \[unknown-error]
invalid.go:342: cannot use expression as "SimpleInterface" value: method "SimpleInterfaceMethod" declares the following error codes which were not part of the interface: \[unknown-error]
invalid.go:351: cannot use expression as "SimpleInterface" value: method "SimpleInterfaceMethod" declares the following error codes which were not part of the interface: \[unknown-error]
invalid.go:356: cannot use expression as "SimpleInterface" value: method "SimpleInterfaceMethod" declares the following error codes which were not part of the interface: \[unknown-error]
invalid.go:359: cannot use expression as "SimpleInterface" value: method "SimpleInterfaceMethod" declares the following error codes which were not part of the interface: \[unknown-error]
invalid.go:360: cannot use expression as "SimpleInterface" value: method "SimpleInterfaceMethod" declares the following error codes which were not part of the interface: \[unknown-error]
invalid.go:365: cannot use expression as "SimpleInterface" value: method "SimpleInterfaceMethod" declares the following error codes which were not part of the interface: \[unknown-error]
invalid.go:369: cannot use expression as "SimpleInterface" value: method "SimpleInterfaceMethod" declares the following error codes which were not part of the interface: \[unknown-error]
invalid.go:373: cannot use expression as "SimpleInterface" value: method "SimpleInterfaceMethod" declares the following error codes which were not part of the interface: \[unknown-error]
invalid.go:379: cannot use expression as "SimpleInterface" value: method "SimpleInterfaceMethod" declares the following error codes which were not part of the interface: \[unknown-error]
invalid.go:382: cannot use expression as "SimpleInterface" value: method "SimpleInterfaceMethod" declares the following error codes which were not part of the interface: \[unknown-error]
invalid.go:386: cannot use expression as "SimpleInterface" value: method "SimpleInterfaceMethod" declares the following error codes which were not part of the interface: \[unknown-error]
invalid.go:390: cannot use expression as "SimpleInterface" value: method "SimpleInterfaceMethod" declares the following error codes which were not part of the interface: \[unknown-error]
invalid.go:395: cannot use expression as "SimpleInterface" value: method "SimpleInterfaceMethod" declares the following error codes which were not part of the interface: \[unknown-error]
invalid.go:396: cannot use expression as "SimpleInterface" value: method "SimpleInterfaceMethod" declares the following error codes which were not part of the interface: \[unknown-error]
invalid.go:397: cannot use expression as "SimpleInterface" value: method "SimpleInterfaceMethod" declares the following error codes which were not part of the interface: \[unknown-error]
invalid.go:397: cannot use expression as "SimpleInterface" value: method "SimpleInterfaceMethod" declares the following error codes which were not part of the interface: \[unknown-error]
invalid.go:404: cannot use expression as "SimpleInterface" value: method "SimpleInterfaceMethod" declares the following error codes which were not part of the interface: \[unknown-error]
invalid.go:418: cannot use expression as "SimpleInterface" value: method "SimpleInterfaceMethod" declares the following error codes which were not part of the interface: \[unknown-error]
invalid.go:426: cannot use expression as "SimpleInterface" value: method "SimpleInterfaceMethod" declares the following error codes which were not part of the interface: \[unknown-error]
invalid.go:434: cannot use expression as "SimpleInterface" value: method "SimpleInterfaceMethod" declares the following error codes which were not part of the interface: \[unknown-error]
invalid.go:442: cannot use expression as "SimpleInterface" value: method "SimpleInterfaceMethod" declares the following error codes which were not part of the interface: \[unknown-error]
invalid.go:446: cannot use expression as "SimpleInterface" value: method "SimpleInterfaceMethod" declares the following error codes which were not part of the interface: \[unknown-error]
invalid.go:450: cannot use expression as "SimpleInterface" value: method "SimpleInterfaceMethod" declares the following error codes which were not part of the interface: \[unknown-error]
invalid.go:455: cannot use expression as "SimpleInterface" value: method "SimpleInterfaceMethod" declares the following error codes which were not part of the interface: \[unknown-error]
invalid.go:455: cannot use expression as "SimpleInterface" value: method "SimpleInterfaceMethod" declares the following error codes which were not part of the interface: \[unknown-error]
invalid.go:462: cannot use expression as "SimpleInterface" value: method "SimpleInterfaceMethod" declares the following error codes which were not part of the interface: \[unknown-error]
invalid.go:462: cannot use expression as "SimpleInterface" value: method "SimpleInterfaceMethod" declares the following error codes which were not part of the interface: \[unknown-error]
invalid.go:469: cannot use expression as "SimpleInterface" value: method "SimpleInterfaceMethod" declares the following error codes which were not part of the interface: \[unknown-error]
invalid.go:473: cannot use expression as "SimpleInterface" value: method "SimpleInterfaceMethod" declares the following error codes which were not part of the interface: \[unknown-error]
invalid.go:499: cannot use expression as "SimpleInterface" value: method "SimpleInterfaceMethod" declares the following error codes which were not part of the interface: \[unknown-error]
invalid.go:507: cannot use expression as "SimpleInterface" value: method "SimpleInterfaceMethod" declares the following error codes which were not part of the interface: \[unknown-error]
invalid.go:515: cannot use expression as "SimpleInterface" value: method "SimpleInterfaceMethod" declares the following error codes which were not part of the interface: \[unknown-error]
invalid.go:523: cannot use expression as "SimpleInterface" value: method "SimpleInterfaceMethod" declares the following error codes which were not part of the interface: \[unknown-error]
invalid.go:531: cannot use expression as "SimpleInterface" value: method "SimpleInterfaceMethod" declares the following error codes which were not part of the interface: \[unknown-error]
invalid.go:535: cannot use expression as "SimpleInterface" value: method "SimpleInterfaceMethod" declares the following error codes which were not part of the interface: \[unknown-error]
invalid.go:539: cannot use expression as "SimpleInterface" value: method "SimpleInterfaceMethod" declares the following error codes which were not part of the interface: \[unknown-error]
invalid.go:544: cannot use expression as "SimpleInterface" value: method "SimpleInterfaceMethod" declares the following error codes which were not part of the interface: \[unknown-error]
invalid.go:544: cannot use expression as "SimpleInterface" value: method "SimpleInterfaceMethod" declares the following error codes which were not part of the interface: \[unknown-error]
invalid.go:551: cannot use expression as "SimpleInterface" value: method "SimpleInterfaceMethod" declares the following error codes which were not part of the interface: \[unknown-error]
invalid.go:551: cannot use expression as "SimpleInterface" value: method "SimpleInterfaceMethod" declares the following error codes which were not part of the interface: \[unknown-error]
invalid.go:558: cannot use expression as "SimpleInterface" value: method "SimpleInterfaceMethod" declares the following error codes which were not part of the interface: \[unknown-error]
invalid.go:562: cannot use expression as "SimpleInterface" value: method "SimpleInterfaceMethod" declares the following error codes which were not part of the interface: \[unknown-error]
invalid.go:570: cannot use expression as "SimpleInterface" value: method "SimpleInterfaceMethod" declares the following error codes which were not part of the interface: \[unknown-error]
invalid.go:574: cannot use expression as "SimpleInterface" value: method "SimpleInterfaceMethod" declares the following error codes which were not part of the interface: \[unknown-error]
invalid.go:575: cannot use expression as "SimpleInterface" value: method "SimpleInterfaceMethod" declares the following error codes which were not part of the interface: \[unknown-error]
invalid.go:577: cannot use expression as "SimpleInterface" value: method "SimpleInterfaceMethod" declares the following error codes which were not part of the interface: \[unknown-error]
invalid.go:578: cannot use expression as "SimpleInterface" value: method "SimpleInterfaceMethod" declares the following error codes which were not part of the interface: \[unknown-error]
invalid.go:582: cannot use expression as "SimpleInterface" value: method "SimpleInterfaceMethod" declares the following error codes which were not part of the interface: \[unknown-error]
invalid.go:590: cannot use expression as "SimpleInterface" value: method "SimpleInterfaceMethod" declares the following error codes which were not part of the interface: \[unknown-error]
invalid.go:592: cannot use expression as "SimpleInterface" value: method "SimpleInterfaceMethod" declares the following error codes which were not part of the interface: \[unknown-error]
invalid.go:594: cannot use expression as "SimpleInterface" value: method "SimpleInterfaceMethod" declares the following error codes which were not part of the interface: \[unknown-error]
invalid.go:596: cannot use expression as "SimpleInterface" value: method "SimpleInterfaceMethod" declares the following error codes which were not part of the interface: \[unknown-error]
invalid.go:604: someLocalInterface: ErrorInterface: local1 local2
invalid.go:609: local1: ErrorCodes: local-1-error local-2-error
invalid.go:615: local2: ErrorCodes: local-3-error local-4-error
invalid.go:617: interface method "local3" does not declare any error codes
invalid.go:642: cannot use expression as "someLocalInterface" value: method "local1" declares the following error codes which were not part of the interface: \[unknown-error]
invalid.go:642: cannot use expression as "someLocalInterface" value: method "local2" declares the following error codes which were not part of the interface: \[some-1-error some-2-error]
invalid.go:650: Interface1: ErrorInterface: I1
invalid.go:652: I1: ErrorCodes:
invalid.go:654: Interface2: ErrorInterface: I2
invalid.go:656: I2: ErrorCodes:
invalid.go:658: Interface3: ErrorInterface: I3
invalid.go:660: I3: ErrorCodes:
invalid.go:673: I1: ErrorCodes: unknown-error
invalid.go:680: I2: ErrorCodes: unknown-error
invalid.go:689: I3: ErrorCodes: unknown-1-error unknown-2-error unknown-3-error
invalid.go:705: cannot use expression as "Interface1" value: method "I1" declares the following error codes which were not part of the interface: \[unknown-error]
invalid.go:705: cannot use expression as "Interface2" value: method "I2" declares the following error codes which were not part of the interface: \[unknown-error]
invalid.go:705: cannot use expression as "Interface3" value: method "I3" declares the following error codes which were not part of the interface: \[unknown-1-error unknown-2-error unknown-3-error]
invalid.go:714: cannot use expression as "EmbeddedSimpleInterface" value: method "SimpleInterfaceMethod" declares the following error codes which were not part of the interface: \[unknown-error]
``` -/
def expected : Check.Expected where
  tags := []
  ifaces := [{ at_ := 8264, msg := Serum.IfaceMsg.claim (Serum.ClaimMsg.errorNotLast) },
    { at_ := 8961, msg := Serum.IfaceMsg.undeclared b!"ExportedCodeNotDeclared" },
    { at_ := 8968, msg := Serum.IfaceMsg.undeclared b!"localCodeNotDeclared" },
    { at_ := 10987, msg := Serum.IfaceMsg.undeclared b!"local3" },
    { at_ := 8775, msg := Serum.IfaceMsg.incompatible b!"SimpleInterfaceMethod" b!"missing codes: [interface-3-error] unused codes: [interface-2-error]" },
    { at_ := 8761, msg := Serum.IfaceMsg.incompatible b!"SimpleInterfaceMethod" b!"missing codes: [interface-1-error] unused codes: [interface-3-error]" },
    { at_ := 8346, msg := Serum.IfaceMsg.incompatible b!"SimpleInterfaceMethod" b!"missing codes: [interface-3-error] unused codes: [interface-2-error]" },
    { at_ := 8318, msg := Serum.IfaceMsg.incompatible b!"SimpleInterfaceMethod" b!"missing codes: [interface-1-error interface-2-error] unused codes: [inner1-error]" },
    { at_ := 8306, msg := Serum.IfaceMsg.incompatible b!"SimpleInterfaceMethod" b!"missing codes: [interface-1-error interface-2-error] unused codes: [inner1-error]" },
    { at_ := 8284, msg := Serum.IfaceMsg.incompatible b!"SimpleInterfaceMethod" b!"missing codes: [interface-1-error] unused codes: [interface-3-error]" }]
  signatures := []
  claims := [{ at_ := 8523, msg := Serum.ClaimMsg.exportedUndeclared b!"Inner1NoCodes" }]
  bodies := []
  mismatches := []
  conversions := [{ at_ := 8996, interface := some 861, method := b!"SimpleInterfaceMethod", codes := [b!"unknown-error"] },
    { at_ := 9013, interface := some 861, method := b!"SimpleInterfaceMethod", codes := [b!"unknown-error"] },
    { at_ := 9033, interface := some 861, method := b!"SimpleInterfaceMethod", codes := [b!"unknown-error"] },
    { at_ := 9051, interface := some 861, method := b!"SimpleInterfaceMethod", codes := [b!"unknown-error"] },
    { at_ := 9078, interface := some 861, method := b!"SimpleInterfaceMethod", codes := [b!"unknown-error"] },
    { at_ := 9108, interface := some 861, method := b!"SimpleInterfaceMethod", codes := [b!"unknown-error"] },
    { at_ := 9139, interface := some 861, method := b!"SimpleInterfaceMethod", codes := [b!"unknown-error"] },
    { at_ := 9155, interface := some 861, method := b!"SimpleInterfaceMethod", codes := [b!"unknown-error"] },
    { at_ := 9155, interface := some 861, method := b!"SimpleInterfaceMethod", codes := [b!"unknown-error"] },
    { at_ := 9170, interface := some 861, method := b!"SimpleInterfaceMethod", codes := [b!"unknown-error"] },
    { at_ := 9180, interface := some 861, method := b!"SimpleInterfaceMethod", codes := [b!"unknown-error"] },
    { at_ := 9189, interface := some 861, method := b!"SimpleInterfaceMethod", codes := [b!"unknown-error"] },
    { at_ := 9189, interface := some 861, method := b!"SimpleInterfaceMethod", codes := [b!"unknown-error"] },
    { at_ := 9225, interface := some 861, method := b!"SimpleInterfaceMethod", codes := [b!"unknown-error"] },
    { at_ := 9238, interface := some 861, method := b!"SimpleInterfaceMethod", codes := [b!"unknown-error"] },
    { at_ := 9251, interface := some 861, method := b!"SimpleInterfaceMethod", codes := [b!"unknown-error"] },
    { at_ := 9264, interface := some 861, method := b!"SimpleInterfaceMethod", codes := [b!"unknown-error"] },
    { at_ := 9321, interface := some 861, method := b!"SimpleInterfaceMethod", codes := [b!"unknown-error"] },
    { at_ := 9334, interface := some 861, method := b!"SimpleInterfaceMethod", codes := [b!"unknown-error"] },
    { at_ := 9340, interface := some 861, method := b!"SimpleInterfaceMethod", codes := [b!"unknown-error"] },
    { at_ := 9376, interface := some 861, method := b!"SimpleInterfaceMethod", codes := [b!"unknown-error"] },
    { at_ := 9384, interface := some 861, method := b!"SimpleInterfaceMethod", codes := [b!"unknown-error"] },
    { at_ := 9405, interface := some 861, method := b!"SimpleInterfaceMethod", codes := [b!"unknown-error"] },
    { at_ := 9437, interface := some 861, method := b!"SimpleInterfaceMethod", codes := [b!"unknown-error"] },
    { at_ := 9448, interface := some 861, method := b!"SimpleInterfaceMethod", codes := [b!"unknown-error"] },
    { at_ := 9496, interface := some 861, method := b!"SimpleInterfaceMethod", codes := [b!"unknown-error"] },
    { at_ := 9506, interface := some 861, method := b!"SimpleInterfaceMethod", codes := [b!"incompatible-1-error", b!"incompatible-2-error"] },
    { at_ := 9510, interface := some 861, method := b!"SimpleInterfaceMethod", codes := [b!"incompatible-1-error", b!"incompatible-2-error"] },
    { at_ := 9516, interface := some 861, method := b!"SimpleInterfaceMethod", codes := [b!"incompatible-1-error", b!"incompatible-2-error"] },
    { at_ := 9546, interface := some 861, method := b!"SimpleInterfaceMethod", codes := [b!"incompatible-1-error", b!"incompatible-2-error"] },
    { at_ := 9605, interface := some 861, method := b!"SimpleInterfaceMethod", codes := [b!"unknown-error"] },
    { at_ := 9617, interface := some 861, method := b!"SimpleInterfaceMethod", codes := [b!"unknown-error"] },
    { at_ := 9635, interface := some 861, method := b!"SimpleInterfaceMethod", codes := [b!"unknown-error"] },
    { at_ := 9644, interface := some 861, method := b!"SimpleInterfaceMethod", codes := [b!"unknown-error"] },
    { at_ := 9656, interface := some 861, method := b!"SimpleInterfaceMethod", codes := [b!"unknown-error"] },
    { at_ := 9664, interface := some 861, method := b!"SimpleInterfaceMethod", codes := [b!"unknown-error"] },
    { at_ := 9666, interface := some 861, method := b!"SimpleInterfaceMethod", codes := [b!"unknown-error"] },
    { at_ := 9668, interface := some 861, method := b!"SimpleInterfaceMethod", codes := [b!"unknown-error"] },
    { at_ := 9689, interface := some 861, method := b!"SimpleInterfaceMethod", codes := [b!"unknown-error"] },
    { at_ := 9705, interface := some 861, method := b!"SimpleInterfaceMethod", codes := [b!"unknown-error"] },
    { at_ := 9719, interface := some 861, method := b!"SimpleInterfaceMethod", codes := [b!"unknown-error"] },
    { at_ := 9735, interface := some 861, method := b!"SimpleInterfaceMethod", codes := [b!"unknown-error"] },
    { at_ := 9739, interface := some 861, method := b!"SimpleInterfaceMethod", codes := [b!"unknown-error"] },
    { at_ := 9758, interface := some 861, method := b!"SimpleInterfaceMethod", codes := [b!"unknown-error"] },
    { at_ := 9769, interface := some 861, method := b!"SimpleInterfaceMethod", codes := [b!"unknown-error"] },
    { at_ := 9809, interface := some 861, method := b!"SimpleInterfaceMethod", codes := [b!"unknown-error"] },
    { at_ := 9813, interface := some 861, method := b!"SimpleInterfaceMethod", codes := [b!"unknown-error"] },
    { at_ := 9831, interface := some 861, method := b!"SimpleInterfaceMethod", codes := [b!"unknown-error"] },
    { at_ := 9837, interface := some 861, method := b!"SimpleInterfaceMethod", codes := [b!"unknown-error"] },
    { at_ := 9887, interface := some 861, method := b!"SimpleInterfaceMethod", codes := [b!"unknown-error"] },
    { at_ := 9896, interface := some 861, method := b!"SimpleInterfaceMethod", codes := [b!"unknown-error"] },
    { at_ := 9900, interface := some 861, method := b!"SimpleInterfaceMethod", codes := [b!"unknown-error"] },
    { at_ := 9918, interface := some 861, method := b!"SimpleInterfaceMethod", codes := [b!"unknown-error"] },
    { at_ := 9928, interface := some 861, method := b!"SimpleInterfaceMethod", codes := [b!"unknown-error"] },
    { at_ := 9932, interface := some 861, method := b!"SimpleInterfaceMethod", codes := [b!"unknown-error"] },
    { at_ := 9948, interface := some 861, method := b!"SimpleInterfaceMethod", codes := [b!"unknown-error"] },
    { at_ := 9956, interface := some 861, method := b!"SimpleInterfaceMethod", codes := [b!"unknown-error"] },
    { at_ := 9975, interface := some 861, method := b!"SimpleInterfaceMethod", codes := [b!"unknown-error"] },
    { at_ := 9983, interface := some 861, method := b!"SimpleInterfaceMethod", codes := [b!"unknown-error"] },
    { at_ := 9997, interface := some 861, method := b!"SimpleInterfaceMethod", codes := [b!"unknown-error"] },
    { at_ := 10009, interface := some 861, method := b!"SimpleInterfaceMethod", codes := [b!"unknown-error"] },
    { at_ := 10014, interface := some 861, method := b!"SimpleInterfaceMethod", codes := [b!"unknown-error"] },
    { at_ := 10025, interface := some 861, method := b!"SimpleInterfaceMethod", codes := [b!"unknown-error"] },
    { at_ := 10065, interface := some 861, method := b!"SimpleInterfaceMethod", codes := [b!"unknown-error"] },
    { at_ := 10075, interface := some 861, method := b!"SimpleInterfaceMethod", codes := [b!"unknown-error"] },
    { at_ := 10079, interface := some 861, method := b!"SimpleInterfaceMethod", codes := [b!"unknown-error"] },
    { at_ := 10098, interface := some 861, method := b!"SimpleInterfaceMethod", codes := [b!"unknown-error"] },
    { at_ := 10108, interface := some 861, method := b!"SimpleInterfaceMethod", codes := [b!"unknown-error"] },
    { at_ := 10112, interface := some 861, method := b!"SimpleInterfaceMethod", codes := [b!"unknown-error"] },
    { at_ := 10128, interface := some 861, method := b!"SimpleInterfaceMethod", codes := [b!"unknown-error"] },
    { at_ := 10136, interface := some 861, method := b!"SimpleInterfaceMethod", codes := [b!"unknown-error"] },
    { at_ := 10155, interface := some 861, method := b!"SimpleInterfaceMethod", codes := [b!"unknown-error"] },
    { at_ := 10163, interface := some 861, method := b!"SimpleInterfaceMethod", codes := [b!"unknown-error"] },
    { at_ := 10180, interface := some 861, method := b!"SimpleInterfaceMethod", codes := [b!"unknown-error"] },
    { at_ := 10192, interface := some 861, method := b!"SimpleInterfaceMethod", codes := [b!"unknown-error"] },
    { at_ := 10197, interface := some 861, method := b!"SimpleInterfaceMethod", codes := [b!"unknown-error"] },
    { at_ := 10207, interface := some 861, method := b!"SimpleInterfaceMethod", codes := [b!"unknown-error"] },
    { at_ := 10253, interface := some 861, method := b!"SimpleInterfaceMethod", codes := [b!"unknown-error"] },
    { at_ := 10276, interface := some 861, method := b!"SimpleInterfaceMethod", codes := [b!"unknown-error"] },
    { at_ := 10286, interface := some 861, method := b!"SimpleInterfaceMethod", codes := [b!"unknown-error"] },
    { at_ := 10290, interface := some 861, method := b!"SimpleInterfaceMethod", codes := [b!"unknown-error"] },
    { at_ := 10309, interface := some 861, method := b!"SimpleInterfaceMethod", codes := [b!"unknown-error"] },
    { at_ := 10331, interface := some 861, method := b!"SimpleInterfaceMethod", codes := [b!"unknown-error"] },
    { at_ := 10353, interface := some 861, method := b!"SimpleInterfaceMethod", codes := [b!"unknown-error"] },
    { at_ := 10375, interface := some 861, method := b!"SimpleInterfaceMethod", codes := [b!"unknown-error"] },
    { at_ := 10393, interface := some 861, method := b!"SimpleInterfaceMethod", codes := [b!"unknown-error"] },
    { at_ := 10410, interface := some 861, method := b!"SimpleInterfaceMethod", codes := [b!"unknown-error"] },
    { at_ := 10423, interface := some 861, method := b!"SimpleInterfaceMethod", codes := [b!"unknown-error"] },
    { at_ := 10437, interface := some 861, method := b!"SimpleInterfaceMethod", codes := [b!"unknown-error"] },
    { at_ := 10446, interface := some 861, method := b!"SimpleInterfaceMethod", codes := [b!"unknown-error"] },
    { at_ := 10440, interface := some 861, method := b!"SimpleInterfaceMethod", codes := [b!"unknown-error"] },
    { at_ := 10444, interface := some 861, method := b!"SimpleInterfaceMethod", codes := [b!"unknown-error"] },
    { at_ := 10457, interface := some 861, method := b!"SimpleInterfaceMethod", codes := [b!"unknown-error"] },
    { at_ := 10510, interface := some 861, method := b!"SimpleInterfaceMethod", codes := [b!"unknown-error"] },
    { at_ := 10527, interface := some 861, method := b!"SimpleInterfaceMethod", codes := [b!"unknown-error"] },
    { at_ := 10544, interface := some 861, method := b!"SimpleInterfaceMethod", codes := [b!"unknown-error"] },
    { at_ := 10561, interface := some 861, method := b!"SimpleInterfaceMethod", codes := [b!"unknown-error"] },
    { at_ := 10569, interface := some 861, method := b!"SimpleInterfaceMethod", codes := [b!"unknown-error"] },
    { at_ := 10578, interface := some 861, method := b!"SimpleInterfaceMethod", codes := [b!"unknown-error"] },
    { at_ := 10592, interface := some 861, method := b!"SimpleInterfaceMethod", codes := [b!"unknown-error"] },
    { at_ := 10592, interface := some 861, method := b!"SimpleInterfaceMethod", codes := [b!"unknown-error"] },
    { at_ := 10603, interface := some 861, method := b!"SimpleInterfaceMethod", codes := [b!"unknown-error"] },
    { at_ := 10603, interface := some 861, method := b!"SimpleInterfaceMethod", codes := [b!"unknown-error"] },
    { at_ := 10611, interface := some 861, method := b!"SimpleInterfaceMethod", codes := [b!"unknown-error"] },
    { at_ := 10619, interface := some 861, method := b!"SimpleInterfaceMethod", codes := [b!"unknown-error"] },
    { at_ := 10699, interface := some 861, method := b!"SimpleInterfaceMethod", codes := [b!"unknown-error"] },
    { at_ := 10716, interface := some 861, method := b!"SimpleInterfaceMethod", codes := [b!"unknown-error"] },
    { at_ := 10733, interface := some 861, method := b!"SimpleInterfaceMethod", codes := [b!"unknown-error"] },
    { at_ := 10750, interface := some 861, method := b!"SimpleInterfaceMethod", codes := [b!"unknown-error"] },
    { at_ := 10767, interface := some 861, method := b!"SimpleInterfaceMethod", codes := [b!"unknown-error"] },
    { at_ := 10775, interface := some 861, method := b!"SimpleInterfaceMethod", codes := [b!"unknown-error"] },
    { at_ := 10784, interface := some 861, method := b!"SimpleInterfaceMethod", codes := [b!"unknown-error"] },
    { at_ := 10798, interface := some 861, method := b!"SimpleInterfaceMethod", codes := [b!"unknown-error"] },
    { at_ := 10798, interface := some 861, method := b!"SimpleInterfaceMethod", codes := [b!"unknown-error"] },
    { at_ := 10809, interface := some 861, method := b!"SimpleInterfaceMethod", codes := [b!"unknown-error"] },
    { at_ := 10809, interface := some 861, method := b!"SimpleInterfaceMethod", codes := [b!"unknown-error"] },
    { at_ := 10817, interface := some 861, method := b!"SimpleInterfaceMethod", codes := [b!"unknown-error"] },
    { at_ := 10825, interface := some 861, method := b!"SimpleInterfaceMethod", codes := [b!"unknown-error"] },
    { at_ := 10856, interface := some 861, method := b!"SimpleInterfaceMethod", codes := [b!"unknown-error"] },
    { at_ := 10875, interface := some 861, method := b!"SimpleInterfaceMethod", codes := [b!"unknown-error"] },
    { at_ := 10879, interface := some 861, method := b!"SimpleInterfaceMethod", codes := [b!"unknown-error"] },
    { at_ := 10886, interface := some 861, method := b!"SimpleInterfaceMethod", codes := [b!"unknown-error"] },
    { at_ := 10890, interface := some 861, method := b!"SimpleInterfaceMethod", codes := [b!"unknown-error"] },
    { at_ := 10894, interface := some 861, method := b!"SimpleInterfaceMethod", codes := [b!"unknown-error"] },
    { at_ := 10925, interface := some 861, method := b!"SimpleInterfaceMethod", codes := [b!"unknown-error"] },
    { at_ := 10933, interface := some 861, method := b!"SimpleInterfaceMethod", codes := [b!"unknown-error"] },
    { at_ := 10941, interface := some 861, method := b!"SimpleInterfaceMethod", codes := [b!"unknown-error"] },
    { at_ := 10949, interface := some 861, method := b!"SimpleInterfaceMethod", codes := [b!"unknown-error"] },
    { at_ := 11066, interface := some 943, method := b!"local2", codes := [b!"some-1-error", b!"some-2-error"] },
    { at_ := 11066, interface := some 943, method := b!"local1", codes := [b!"unknown-error"] },
    { at_ := 11225, interface := some 949, method := b!"I1", codes := [b!"unknown-error"] },
    { at_ := 11224, interface := some 950, method := b!"I2", codes := [b!"unknown-error"] },
    { at_ := 11223, interface := some 951, method := b!"I3", codes := [b!"unknown-1-error", b!"unknown-2-error", b!"unknown-3-error"] },
    { at_ := 11241, interface := some 864, method := b!"SimpleInterfaceMethod", codes := [b!"unknown-error"] }]
  codes := [(774, [b!"interface-1-error", b!"interface-2-error", b!"interface-3-error", b!"interface-4-error"]),
    (775, [b!"some-error"]),
    (776, [b!"interface-1-error", b!"interface-2-error"]),
    (777, [b!"interface-1-error", b!"interface-2-error", b!"interface-3-error", b!"interface-4-error"]),
    (779, [b!"interface-1-error"]),
    (780, [b!"interface-3-error"]),
    (783, [b!"interface-2-error"]),
    (784, [b!"interface-4-error"]),
    (792, [b!"interface-1-error", b!"interface-2-error"]),
    (793, [b!"interface-3-error", b!"interface-4-error"]),
    (795, [b!"interface-1-error", b!"interface-2-error"]),
    (796, [b!"inner1-error"]),
    (799, [b!"interface-1-error", b!"interface-2-error"]),
    (825, [b!"interface-1-error"]),
    (826, [b!"interface-3-error"]),
    (829, [b!"interface-2-error"]),
    (830, [b!"interface-4-error"]),
    (833, [b!"interface-2-error"]),
    (834, []),
    (872, [b!"interface-1-error", b!"interface-2-error", b!"interface-3-error", b!"interface-4-error"]),
    (873, [b!"interface-1-error", b!"interface-2-error", b!"interface-3-error", b!"interface-4-error"]),
    (877, [b!"interface-1-error"]),
    (878, [b!"interface-3-error"]),
    (880, [b!"interface-1-error"]),
    (882, [b!"interface-1-error", b!"interface-2-error"]),
    (883, [b!"interface-1-error", b!"interface-2-error", b!"interface-3-error", b!"interface-4-error"]),
    (885, [b!"ree-error"]),
    (886, [b!"interface-1-error", b!"interface-2-error"]),
    (899, [b!"unknown-error"]),
    (955, [b!"unknown-error"]),
    (956, [b!"unknown-error"]),
    (957, [b!"unknown-1-error", b!"unknown-2-error", b!"unknown-3-error"]),
    (961, [b!"interface-1-error", b!"interface-2-error"]),
    (962, [b!"interface-1-error", b!"interface-2-error"]),
    (963, [b!"interface-3-error", b!"interface-4-error"]),
    (966, [b!"interface-2-error", b!"interface-3-error"]),
    (967, [b!"interface-5-error"]),
    (968, [b!"interface-1-error", b!"interface-3-error"]),
    (975, [b!"interface-1-error", b!"interface-3-error"]),
    (978, [b!"interface-1-error", b!"incompatible-1-error", b!"incompatible-2-error"]),
    (990, [b!"local-1-error", b!"local-2-error"]),
    (991, [b!"local-3-error", b!"local-4-error"]),
    (993, []),
    (994, []),
    (995, [])]
  ctors := []
  errorTypes := [(786, { codes := [], field := some { name := b!"TheCode", position := 0 } }),
    (836, { codes := [], field := some { name := b!"TheCode", position := 0 } }),
    (888, { codes := [], field := some { name := b!"TheCode", position := 0 } })]
  interfaces := [(769, [(b!"Inner1Method2", [b!"interface-3-error", b!"interface-4-error"]), (b!"Inner1Method1", [b!"interface-1-error", b!"interface-2-error"])]),
    (770, [(b!"SimpleInterfaceMethod", [b!"interface-1-error", b!"interface-2-error"])]),
    (771, [(b!"SimpleInterfaceMethod", [b!"inner1-error"])]),
    (773, [(b!"Inner1YesCodes", [b!"interface-1-error", b!"interface-2-error"])]),
    (861, [(b!"SimpleInterfaceMethod", [b!"interface-1-error", b!"interface-2-error"])]),
    (862, [(b!"InterfaceMethod2", [b!"interface-3-error", b!"interface-4-error"]), (b!"InterfaceMethod1", [b!"interface-1-error", b!"interface-2-error"])]),
    (864, [(b!"SimpleInterfaceMethod", [b!"interface-1-error", b!"interface-2-error"])]),
    (865, [(b!"OtherMethod", [b!"interface-5-error"]), (b!"SimpleInterfaceMethod", [b!"interface-1-error", b!"interface-2-error"])]),
    (866, [(b!"SimpleInterfaceMethod", [b!"interface-1-error", b!"interface-2-error"])]),
    (867, [(b!"SimpleInterfaceMethod", [b!"interface-1-error", b!"interface-2-error"])]),
    (868, [(b!"SimpleInterfaceMethod", [b!"interface-1-error", b!"interface-2-error"])]),
    (869, [(b!"SimpleInterfaceMethod", [b!"interface-2-error", b!"interface-3-error"])]),
    (870, [(b!"OtherMethod", [b!"interface-5-error"])]),
    (871, [(b!"SimpleInterfaceMethod", [b!"interface-1-error", b!"interface-3-error"])]),
    (894, [(b!"OtherMethod", [b!"interface-5-error"]), (b!"SimpleInterfaceMethod", [b!"interface-1-error", b!"interface-2-error"])]),
    (895, [(b!"SimpleInterfaceMethod", [b!"interface-1-error", b!"interface-2-error"])]),
    (896, [(b!"SimpleInterfaceMethod", [b!"interface-1-error", b!"interface-3-error"])]),
    (916, [(b!"SimpleInterfaceMethod", [b!"interface-1-error", b!"incompatible-1-error", b!"incompatible-2-error"])]),
    (943, [(b!"local2", [b!"local-3-error", b!"local-4-error"]), (b!"local1", [b!"local-1-error", b!"local-2-error"])]),
    (949, [(b!"I1", [])]),
    (950, [(b!"I2", [])]),
    (951, [(b!"I3", [])])]
  objects := 1385

/-- What functions call, and which literals they visit. -/
def graph : Check.Graph :=
  [([], []), ([0], []), ([], []), ([], []), ([], []), ([], []), ([], []), ([], []), ([], []), ([], []), ([], []), ([], []), ([], []), ([],
  []), ([], []), ([], []), ([13], []), ([], []), ([], []), ([], []), ([], []), ([], []), ([], []), ([], []), ([], []), ([], []), ([], []),
  ([], []), ([], []), ([], []), ([], []), ([], []), ([], []), ([], []), ([], []), ([], []), ([], []), ([], []), ([], []), ([], []), ([], []),
  ([], []), ([], []), ([], []), ([], []), ([], []), ([], []), ([], []), ([], []), ([], []), ([], []), ([], [])]

theorem checked : Check.run package true expected graph = true := by decide +kernel

theorem imports : Check.Tables package.env.facts := ((tables_noFacts.merge interfacesInner1.exported).merge interfacesInner2.exported)

theorem exported : Check.Tables (Check.factsOf result) := Check.tables checked imports

/-- The facts known before a run: those exported by some run over the imported packages. -/
def Imported (F : Facts) : Prop :=
  ∃ F0 F1, interfacesInner1.Exports F0 ∧ interfacesInner2.Exports F1 ∧ F = merge (merge (noFacts) F0) F1

/-- The facts known after a run. -/
def Exports (F : Facts) : Prop := Check.Exports package Imported true F

theorem imports_same (F : Facts) (h : Imported F) : Props.Run.SameFacts package.env.facts F := by
  obtain ⟨F0, F1, h0, h1, rfl⟩ := h
  exact (Props.Run.SameFacts.merge (Props.Run.SameFacts.merge (.refl _) (interfacesInner1.exports_same h0)) (interfacesInner2.exports_same h1))

theorem exports_same {F : Facts} (h : Exports F) : Props.Run.SameFacts (Check.factsOf result) F :=
  Check.exports_same checked imports imports_same h

/-- **C54**: every run over the package has the expected result. -/
theorem always : Check.Always package Imported true expected :=
  Check.always checked imports imports_same

/-- For the nodes with diagnostics: file, line, and type of node. -/
def nodes : Tree (GoString × Nat × GoString) :=
  (.node (.node (.node (.node (.node (.node (.node (.node Tree.nil 8264 ((b!"interfaces.go", 39, b!"Ident")) Tree.nil) 8284 ((b!"interfaces.go", 49, b!"Ident")) Tree.nil) 8306 ((b!"interfaces.go", 60, b!"SelectorExpr")) (.node Tree.nil 8318 ((b!"interfaces.go", 65, b!"SelectorExpr")) Tree.nil)) 8346 ((b!"interfaces.go", 84, b!"Ident")) (.node (.node Tree.nil 8523 ((b!"interfaces.go", 151, b!"FuncDecl")) Tree.nil) 8761 ((b!"interfaces_multifile.go", 7, b!"Ident")) (.node Tree.nil 8775 ((b!"interfaces_multifile.go", 16, b!"Ident")) Tree.nil))) 8961 ((b!"invalid.go", 6, b!"Field")) (.node (.node (.node (.node Tree.nil 8968 ((b!"invalid.go", 7, b!"Field")) Tree.nil) 8996 ((b!"invalid.go", 21, b!"CompositeLit")) Tree.nil) 9013 ((b!"invalid.go", 25, b!"CompositeLit")) (.node Tree.nil 9033 ((b!"invalid.go", 29, b!"CompositeLit")) Tree.nil)) 9051 ((b!"invalid.go", 34, b!"CompositeLit")) (.node (.node Tree.nil 9078 ((b!"invalid.go", 41, b!"CompositeLit")) Tree.nil) 9108 ((b!"invalid.go", 48, b!"CompositeLit")) (.node Tree.nil 9139 ((b!"invalid.go", 58, b!"CallExpr")) Tree.nil)))) 9155 ((b!"invalid.go", 62, b!"CallExpr")) (.node (.node (.node (.node (.node Tree.nil 9170 ((b!"invalid.go", 70, b!"CompositeLit")) Tree.nil) 9180 ((b!"invalid.go", 71, b!"CompositeLit")) Tree.nil) 9189 ((b!"invalid.go", 72, b!"CallExpr")) (.node Tree.nil 9225 ((b!"invalid.go", 82, b!"IndexExpr")) Tree.nil)) 9238 ((b!"invalid.go", 85, b!"IndexExpr")) (.node (.node Tree.nil 9251 ((b!"invalid.go", 89, b!"IndexExpr")) Tree.nil) 9264 ((b!"invalid.go", 93, b!"IndexExpr")) (.node Tree.nil 9321 ((b!"invalid.go", 107, b!"Ident")) Tree.nil))) 9334 ((b!"invalid.go", 109, b!"Ident")) (.node (.node (.node Tree.nil 9340 ((b!"invalid.go", 110, b!"Ident")) Tree.nil) 9376 ((b!"invalid.go", 118, b!"Ident")) (.node Tree.nil 9384 ((b!"invalid.go", 119, b!"Ident")) Tree.nil)) 9405 ((b!"invalid.go", 123, b!"CompositeLit")) (.node (.node Tree.nil 9437 ((b!"invalid.go", 133, b!"CompositeLit")) Tree.nil) 9448 ((b!"invalid.go", 135, b!"CompositeLit")) (.node Tree.nil 9496 ((b!"invalid.go", 156, b!"CompositeLit")) Tree.nil))))) 9506 ((b!"invalid.go", 158, b!"Ident")) (.node (.node (.node (.node (.node (.node Tree.nil 9510 ((b!"invalid.go", 159, b!"Ident")) Tree.nil) 9516 ((b!"invalid.go", 160, b!"Ident")) Tree.nil) 9546 ((b!"invalid.go", 168, b!"Ident")) (.node Tree.nil 9605 ((b!"invalid.go", 192, b!"CompositeLit")) Tree.nil)) 9617 ((b!"invalid.go", 194, b!"CompositeLit")) (.node (.node Tree.nil 9635 ((b!"invalid.go", 197, b!"CompositeLit")) Tree.nil) 9644 ((b!"invalid.go", 199, b!"CompositeLit")) (.node Tree.nil 9656 ((b!"invalid.go", 200, b!"CompositeLit")) Tree.nil))) 9664 ((b!"invalid.go", 201, b!"CompositeLit")) (.node (.node (.node (.node Tree.nil 9666 ((b!"invalid.go", 201, b!"CompositeLit")) Tree.nil) 9668 ((b!"invalid.go", 201, b!"CompositeLit")) Tree.nil) 9689 ((b!"invalid.go", 209, b!"CompositeLit")) (.node Tree.nil 9705 ((b!"invalid.go", 210, b!"CompositeLit")) Tree.nil)) 9719 ((b!"invalid.go", 211, b!"CompositeLit")) (.node (.node Tree.nil 9735 ((b!"invalid.go", 215, b!"CompositeLit")) Tree.nil) 9739 ((b!"invalid.go", 216, b!"CompositeLit")) (.node Tree.nil 9758 ((b!"invalid.go", 222, b!"CompositeLit")) Tree.nil)))) 9769 ((b!"invalid.go", 223, b!"CompositeLit")) (.node (.node (.node (.node (.node Tree.nil 9809 ((b!"invalid.go", 229, b!"CompositeLit")) Tree.nil) 9813 ((b!"invalid.go", 230, b!"CompositeLit")) Tree.nil) 9831 ((b!"invalid.go", 237, b!"CompositeLit")) (.node Tree.nil 9837 ((b!"invalid.go", 238, b!"CompositeLit")) Tree.nil)) 9887 ((b!"invalid.go", 251, b!"CompositeLit")) (.node (.node Tree.nil 9896 ((b!"invalid.go", 254, b!"CompositeLit")) Tree.nil) 9900 ((b!"invalid.go", 257, b!"CompositeLit")) (.node Tree.nil 9918 ((b!"invalid.go", 263, b!"CompositeLit")) Tree.nil))) 9928 ((b!"invalid.go", 266, b!"CompositeLit")) (.node (.node (.node Tree.nil 9932 ((b!"invalid.go", 267, b!"CompositeLit")) Tree.nil) 9948 ((b!"invalid.go", 272, b!"CompositeLit")) (.node Tree.nil 9956 ((b!"invalid.go", 273, b!"CompositeLit")) Tree.nil)) 9975 ((b!"invalid.go", 277, b!"CompositeLit")) (.node (.node Tree.nil 9983 ((b!"invalid.go", 278, b!"CompositeLit")) Tree.nil) 9997 ((b!"invalid.go", 282, b!"CompositeLit")) (.node Tree.nil 10009 ((b!"invalid.go", 288, b!"CompositeLit")) Tree.nil)))))) 10014 ((b!"invalid.go", 289, b!"CompositeLit")) (.node (.node (.node (.node (.node (.node (.node Tree.nil 10025 ((b!"invalid.go", 292, b!"CompositeLit")) Tree.nil) 10065 ((b!"invalid.go", 301, b!"CompositeLit")) Tree.nil) 10075 ((b!"invalid.go", 304, b!"CompositeLit")) (.node Tree.nil 10079 ((b!"invalid.go", 307, b!"CompositeLit")) Tree.nil)) 10098 ((b!"invalid.go", 313, b!"CompositeLit")) (.node (.node Tree.nil 10108 ((b!"invalid.go", 316, b!"CompositeLit")) Tree.nil) 10112 ((b!"invalid.go", 317, b!"CompositeLit")) (.node Tree.nil 10128 ((b!"invalid.go", 322, b!"CompositeLit")) Tree.nil))) 10136 ((b!"invalid.go", 323, b!"CompositeLit")) (.node (.node (.node (.node Tree.nil 10155 ((b!"invalid.go", 327, b!"CompositeLit")) Tree.nil) 10163 ((b!"invalid.go", 328, b!"CompositeLit")) Tree.nil) 10180 ((b!"invalid.go", 332, b!"CompositeLit")) (.node Tree.nil 10192 ((b!"invalid.go", 338, b!"CompositeLit")) Tree.nil)) 10197 ((b!"invalid.go", 339, b!"CompositeLit")) (.node (.node Tree.nil 10207 ((b!"invalid.go", 342, b!"CompositeLit")) Tree.nil) 10253 ((b!"invalid.go", 351, b!"CompositeLit")) (.node Tree.nil 10276 ((b!"invalid.go", 356, b!"CompositeLit")) Tree.nil)))) 10286 ((b!"invalid.go", 359, b!"CompositeLit")) (.node (.node (.node (.node (.node Tree.nil 10290 ((b!"invalid.go", 360, b!"CompositeLit")) Tree.nil) 10309 ((b!"invalid.go", 365, b!"CompositeLit")) Tree.nil) 10331 ((b!"invalid.go", 369, b!"CompositeLit")) (.node Tree.nil 10353 ((b!"invalid.go", 373, b!"CompositeLit")) Tree.nil)) 10375 ((b!"invalid.go", 379, b!"CompositeLit")) (.node (.node Tree.nil 10393 ((b!"invalid.go", 382, b!"CompositeLit")) Tree.nil) 10410 ((b!"invalid.go", 386, b!"CompositeLit")) (.node Tree.nil 10423 ((b!"invalid.go", 390, b!"CompositeLit")) Tree.nil))) 10437 ((b!"invalid.go", 395, b!"CompositeLit")) (.node (.node (.node Tree.nil 10440 ((b!"invalid.go", 396, b!"CompositeLit")) Tree.nil) 10444 ((b!"invalid.go", 397, b!"CompositeLit")) (.node Tree.nil 10446 ((b!"invalid.go", 397, b!"CompositeLit")) Tree.nil)) 10457 ((b!"invalid.go", 404, b!"CompositeLit")) (.node (.node Tree.nil 10510 ((b!"invalid.go", 418, b!"Ident")) Tree.nil) 10527 ((b!"invalid.go", 426, b!"Ident")) (.node Tree.nil 10544 ((b!"invalid.go", 434, b!"Ident")) Tree.nil))))) 10561 ((b!"invalid.go", 442, b!"Ident")) (.node (.node (.node (.node (.node (.node Tree.nil 10569 ((b!"invalid.go", 446, b!"Ident")) Tree.nil) 10578 ((b!"invalid.go", 450, b!"Ident")) Tree.nil) 10592 ((b!"invalid.go", 455, b!"Ident")) (.node Tree.nil 10603 ((b!"invalid.go", 462, b!"Ident")) Tree.nil)) 10611 ((b!"invalid.go", 469, b!"Ident")) (.node (.node Tree.nil 10619 ((b!"invalid.go", 473, b!"Ident")) Tree.nil) 10699 ((b!"invalid.go", 499, b!"Ident")) (.node Tree.nil 10716 ((b!"invalid.go", 507, b!"Ident")) Tree.nil))) 10733 ((b!"invalid.go", 515, b!"Ident")) (.node (.node (.node Tree.nil 10750 ((b!"invalid.go", 523, b!"Ident")) Tree.nil) 10767 ((b!"invalid.go", 531, b!"Ident")) (.node Tree.nil 10775 ((b!"invalid.go", 535, b!"Ident")) Tree.nil)) 10784 ((b!"invalid.go", 539, b!"Ident")) (.node (.node Tree.nil 10798 ((b!"invalid.go", 544, b!"Ident")) Tree.nil) 10809 ((b!"invalid.go", 551, b!"Ident")) (.node Tree.nil 10817 ((b!"invalid.go", 558, b!"Ident")) Tree.nil)))) 10825 ((b!"invalid.go", 562, b!"Ident")) (.node (.node (.node (.node (.node Tree.nil 10856 ((b!"invalid.go", 570, b!"UnaryExpr")) Tree.nil) 10875 ((b!"invalid.go", 574, b!"CompositeLit")) Tree.nil) 10879 ((b!"invalid.go", 575, b!"UnaryExpr")) (.node Tree.nil 10886 ((b!"invalid.go", 577, b!"CompositeLit")) Tree.nil)) 10890 ((b!"invalid.go", 578, b!"UnaryExpr")) (.node (.node Tree.nil 10894 ((b!"invalid.go", 582, b!"UnaryExpr")) Tree.nil) 10925 ((b!"invalid.go", 590, b!"CompositeLit")) (.node Tree.nil 10933 ((b!"invalid.go", 592, b!"UnaryExpr")) Tree.nil))) 10941 ((b!"invalid.go", 594, b!"CompositeLit")) (.node (.node (.node Tree.nil 10949 ((b!"invalid.go", 596, b!"UnaryExpr")) Tree.nil) 10987 ((b!"invalid.go", 617, b!"Field")) (.node Tree.nil 11066 ((b!"invalid.go", 642, b!"CompositeLit")) Tree.nil)) 11223 ((b!"invalid.go", 705, b!"Ident")) (.node (.node Tree.nil 11224 ((b!"invalid.go", 705, b!"CallExpr")) Tree.nil) 11225 ((b!"invalid.go", 705, b!"CompositeLit")) (.node Tree.nil 11241 ((b!"invalid.go", 714, b!"CompositeLit")) Tree.nil)))))))

/-- The names of the objects named in diagnostics other than by identifiers. -/
def objectNames : Tree GoString :=
  (.node (.node (.node Tree.nil 861 (b!"SimpleInterface") Tree.nil) 864 (b!"EmbeddedSimpleInterface") (.node Tree.nil 943 (b!"someLocalInterface") Tree.nil)) 949 (b!"Interface1") (.node (.node Tree.nil 950 (b!"Interface2") Tree.nil) 951 (b!"Interface3") Tree.nil))

def names : Names where
  object := fun o => (objectNames.find o).getD []
  kind := fun n => ((nodes.find n).map fun p => p.2.2).getD []

def place (n : NodeId) : GoString × Nat := ((nodes.find n).map fun p => (p.1, p.2.1)).getD ([], 0)

/-- What is printed: file, line and text. -/
def lines : List Check.Line := [(b!"interfaces.go", 39, b!"error should be returned as the last argument"),
    (b!"invalid.go", 6, b!"interface method \"ExportedCodeNotDeclared\" does not declare any error codes"),
    (b!"invalid.go", 7, b!"interface method \"localCodeNotDeclared\" does not declare any error codes"),
    (b!"invalid.go", 617, b!"interface method \"local3\" does not declare any error codes"),
    (b!"interfaces_multifile.go", 16, b!"embedded interface is not compatible: method \"SimpleInterfaceMethod\" has mismatches in declared error codes: missing codes: [interface-3-error] unused codes: [interface-2-error]"),
    (b!"interfaces_multifile.go", 7, b!"embedded interface is not compatible: method \"SimpleInterfaceMethod\" has mismatches in declared error codes: missing codes: [interface-1-error] unused codes: [interface-3-error]"),
    (b!"interfaces.go", 84, b!"embedded interface is not compatible: method \"SimpleInterfaceMethod\" has mismatches in declared error codes: missing codes: [interface-3-error] unused codes: [interface-2-error]"),
    (b!"interfaces.go", 65, b!"embedded interface is not compatible: method \"SimpleInterfaceMethod\" has mismatches in declared error codes: missing codes: [interface-1-error interface-2-error] unused codes: [inner1-error]"),
    (b!"interfaces.go", 60, b!"embedded interface is not compatible: method \"SimpleInterfaceMethod\" has mismatches in declared error codes: missing codes: [interface-1-error interface-2-error] unused codes: [inner1-error]"),
    (b!"interfaces.go", 49, b!"embedded interface is not compatible: method \"SimpleInterfaceMethod\" has mismatches in declared error codes: missing codes: [interface-1-error] unused codes: [interface-3-error]"),
    (b!"interfaces.go", 151, b!"function \"Inner1NoCodes\" is exported, but does not declare any error codes"),
    (b!"invalid.go", 21, b!"cannot use expression as \"SimpleInterface\" value: method \"SimpleInterfaceMethod\" declares the following error codes which were not part of the interface: [unknown-error]"),
    (b!"invalid.go", 25, b!"cannot use expression as \"SimpleInterface\" value: method \"SimpleInterfaceMethod\" declares the following error codes which were not part of the interface: [unknown-error]"),
    (b!"invalid.go", 29, b!"cannot use expression as \"SimpleInterface\" value: method \"SimpleInterfaceMethod\" declares the following error codes which were not part of the interface: [unknown-error]"),
    (b!"invalid.go", 34, b!"cannot use expression as \"SimpleInterface\" value: method \"SimpleInterfaceMethod\" declares the following error codes which were not part of the interface: [unknown-error]"),
    (b!"invalid.go", 41, b!"cannot use expression as \"SimpleInterface\" value: method \"SimpleInterfaceMethod\" declares the following error codes which were not part of the interface: [unknown-error]"),
    (b!"invalid.go", 48, b!"cannot use expression as \"SimpleInterface\" value: method \"SimpleInterfaceMethod\" declares the following error codes which were not part of the interface: [unknown-error]"),
    (b!"invalid.go", 58, b!"cannot use expression as \"SimpleInterface\" value: method \"SimpleInterfaceMethod\" declares the following error codes which were not part of the interface: [unknown-error]"),
    (b!"invalid.go", 62, b!"cannot use expression as \"SimpleInterface\" value: method \"SimpleInterfaceMethod\" declares the following error codes which were not part of the interface: [unknown-error]"),
    (b!"invalid.go", 62, b!"cannot use expression as \"SimpleInterface\" value: method \"SimpleInterfaceMethod\" declares the following error codes which were not part of the interface: [unknown-error]"),
    (b!"invalid.go", 70, b!"cannot use expression as \"SimpleInterface\" value: method \"SimpleInterfaceMethod\" declares the following error codes which were not part of the interface: [unknown-error]"),
    (b!"invalid.go", 71, b!"cannot use expression as \"SimpleInterface\" value: method \"SimpleInterfaceMethod\" declares the following error codes which were not part of the interface: [unknown-error]"),
    (b!"invalid.go", 72, b!"cannot use expression as \"SimpleInterface\" value: method \"SimpleInterfaceMethod\" declares the following error codes which were not part of the interface: [unknown-error]"),
    (b!"invalid.go", 72, b!"cannot use expression as \"SimpleInterface\" value: method \"SimpleInterfaceMethod\" declares the following error codes which were not part of the interface: [unknown-error]"),
    (b!"invalid.go", 82, b!"cannot use expression as \"SimpleInterface\" value: method \"SimpleInterfaceMethod\" declares the following error codes which were not part of the interface: [unknown-error]"),
    (b!"invalid.go", 85, b!"cannot use expression as \"SimpleInterface\" value: method \"SimpleInterfaceMethod\" declares the following error codes which were not part of the interface: [unknown-error]"),
    (b!"invalid.go", 89, b!"cannot use expression as \"SimpleInterface\" value: method \"SimpleInterfaceMethod\" declares the following error codes which were not part of the interface: [unknown-error]"),
    (b!"invalid.go", 93, b!"cannot use expression as \"SimpleInterface\" value: method \"SimpleInterfaceMethod\" declares the following error codes which were not part of the interface: [unknown-error]"),
    (b!"invalid.go", 107, b!"cannot use expression as \"SimpleInterface\" value: method \"SimpleInterfaceMethod\" declares the following error codes which were not part of the interface: [unknown-error]"),
    (b!"invalid.go", 109, b!"cannot use expression as \"SimpleInterface\" value: method \"SimpleInterfaceMethod\" declares the following error codes which were not part of the interface: [unknown-error]"),
    (b!"invalid.go", 110, b!"cannot use expression as \"SimpleInterface\" value: method \"SimpleInterfaceMethod\" declares the following error codes which were not part of the interface: [unknown-error]"),
    (b!"invalid.go", 118, b!"cannot use expression as \"SimpleInterface\" value: method \"SimpleInterfaceMethod\" declares the following error codes which were not part of the interface: [unknown-error]"),
    (b!"invalid.go", 119, b!"cannot use expression as \"SimpleInterface\" value: method \"SimpleInterfaceMethod\" declares the following error codes which were not part of the interface: [unknown-error]"),
    (b!"invalid.go", 123, b!"cannot use expression as \"SimpleInterface\" value: method \"SimpleInterfaceMethod\" declares the following error codes which were not part of the interface: [unknown-error]"),
    (b!"invalid.go", 133, b!"cannot use expression as \"SimpleInterface\" value: method \"SimpleInterfaceMethod\" declares the following error codes which were not part of the interface: [unknown-error]"),
    (b!"invalid.go", 135, b!"cannot use expression as \"SimpleInterface\" value: method \"SimpleInterfaceMethod\" declares the following error codes which were not part of the interface: [unknown-error]"),
    (b!"invalid.go", 156, b!"cannot use expression as \"SimpleInterface\" value: method \"SimpleInterfaceMethod\" declares the following error codes which were not part of the interface: [unknown-error]"),
    (b!"invalid.go", 158, b!"cannot use expression as \"SimpleInterface\" value: method \"SimpleInterfaceMethod\" declares the following error codes which were not part of the interface: [incompatible-1-error incompatible-2-error]"),
    (b!"invalid.go", 159, b!"cannot use expression as \"SimpleInterface\" value: method \"SimpleInterfaceMethod\" declares the following error codes which were not part of the interface: [incompatible-1-error incompatible-2-error]"),
    (b!"invalid.go", 160, b!"cannot use expression as \"SimpleInterface\" value: method \"SimpleInterfaceMethod\" declares the following error codes which were not part of the interface: [incompatible-1-error incompatible-2-error]"),
    (b!"invalid.go", 168, b!"cannot use expression as \"SimpleInterface\" value: method \"SimpleInterfaceMethod\" declares the following error codes which were not part of the interface: [incompatible-1-error incompatible-2-error]"),
    (b!"invalid.go", 192, b!"cannot use expression as \"SimpleInterface\" value: method \"SimpleInterfaceMethod\" declares the following error codes which were not part of the interface: [unknown-error]"),
    (b!"invalid.go", 194, b!"cannot use expression as \"SimpleInterface\" value: method \"SimpleInterfaceMethod\" declares the following error codes which were not part of the interface: [unknown-error]"),
    (b!"invalid.go", 197, b!"cannot use expression as \"SimpleInterface\" value: method \"SimpleInterfaceMethod\" declares the following error codes which were not part of the interface: [unknown-error]"),
    (b!"invalid.go", 199, b!"cannot use expression as \"SimpleInterface\" value: method \"SimpleInterfaceMethod\" declares the following error codes which were not part of the interface: [unknown-error]"),
    (b!"invalid.go", 200, b!"cannot use expression as \"SimpleInterface\" value: method \"SimpleInterfaceMethod\" declares the following error codes which were not part of the interface: [unknown-error]"),
    (b!"invalid.go", 201, b!"cannot use expression as \"SimpleInterface\" value: method \"SimpleInterfaceMethod\" declares the following error codes which were not part of the interface: [unknown-error]"),
    (b!"invalid.go", 201, b!"cannot use expression as \"SimpleInterface\" value: method \"SimpleInterfaceMethod\" declares the following error codes which were not part of the interface: [unknown-error]"),
    (b!"invalid.go", 201, b!"cannot use expression as \"SimpleInterface\" value: method \"SimpleInterfaceMethod\" declares the following error codes which were not part of the interface: [unknown-error]"),
    (b!"invalid.go", 209, b!"cannot use expression as \"SimpleInterface\" value: method \"SimpleInterfaceMethod\" declares the following error codes which were not part of the interface: [unknown-error]"),
    (b!"invalid.go", 210, b!"cannot use expression as \"SimpleInterface\" value: method \"SimpleInterfaceMethod\" declares the following error codes which were not part of the interface: [unknown-error]"),
    (b!"invalid.go", 211, b!"cannot use expression as \"SimpleInterface\" value: method \"SimpleInterfaceMethod\" declares the following error codes which were not part of the interface: [unknown-error]"),
    (b!"invalid.go", 215, b!"cannot use expression as \"SimpleInterface\" value: method \"SimpleInterfaceMethod\" declares the following error codes which were not part of the interface: [unknown-error]"),
    (b!"invalid.go", 216, b!"cannot use expression as \"SimpleInterface\" value: method \"SimpleInterfaceMethod\" declares the following error codes which were not part of the interface: [unknown-error]"),
    (b!"invalid.go", 222, b!"cannot use expression as \"SimpleInterface\" value: method \"SimpleInterfaceMethod\" declares the following error codes which were not part of the interface: [unknown-error]"),
    (b!"invalid.go", 223, b!"cannot use expression as \"SimpleInterface\" value: method \"SimpleInterfaceMethod\" declares the following error codes which were not part of the interface: [unknown-error]"),
    (b!"invalid.go", 229, b!"cannot use expression as \"SimpleInterface\" value: method \"SimpleInterfaceMethod\" declares the following error codes which were not part of the interface: [unknown-error]"),
    (b!"invalid.go", 230, b!"cannot use expression as \"SimpleInterface\" value: method \"SimpleInterfaceMethod\" declares the following error codes which were not part of the interface: [unknown-error]"),
    (b!"invalid.go", 237, b!"cannot use expression as \"SimpleInterface\" value: method \"SimpleInterfaceMethod\" declares the following error codes which were not part of the interface: [unknown-error]"),
    (b!"invalid.go", 238, b!"cannot use expression as \"SimpleInterface\" value: method \"SimpleInterfaceMethod\" declares the following error codes which were not part of the interface: [unknown-error]"),
    (b!"invalid.go", 251, b!"cannot use expression as \"SimpleInterface\" value: method \"SimpleInterfaceMethod\" declares the following error codes which were not part of the interface: [unknown-error]"),
    (b!"invalid.go", 254, b!"cannot use expression as \"SimpleInterface\" value: method \"SimpleInterfaceMethod\" declares the following error codes which were not part of the interface: [unknown-error]"),
    (b!"invalid.go", 257, b!"cannot use expression as \"SimpleInterface\" value: method \"SimpleInterfaceMethod\" declares the following error codes which were not part of the interface: [unknown-error]"),
    (b!"invalid.go", 263, b!"cannot use expression as \"SimpleInterface\" value: method \"SimpleInterfaceMethod\" declares the following error codes which were not part of the interface: [unknown-error]"),
    (b!"invalid.go", 266, b!"cannot use expression as \"SimpleInterface\" value: method \"SimpleInterfaceMethod\" declares the following error codes which were not part of the interface: [unknown-error]"),
    (b!"invalid.go", 267, b!"cannot use expression as \"SimpleInterface\" value: method \"SimpleInterfaceMethod\" declares the following error codes which were not part of the interface: [unknown-error]"),
    (b!"invalid.go", 272, b!"cannot use expression as \"SimpleInterface\" value: method \"SimpleInterfaceMethod\" declares the following error codes which were not part of the interface: [unknown-error]"),
    (b!"invalid.go", 273, b!"cannot use expression as \"SimpleInterface\" value: method \"SimpleInterfaceMethod\" declares the following error codes which were not part of the interface: [unknown-error]"),
    (b!"invalid.go", 277, b!"cannot use expression as \"SimpleInterface\" value: method \"SimpleInterfaceMethod\" declares the following error codes which were not part of the interface: [unknown-error]"),
    (b!"invalid.go", 278, b!"cannot use expression as \"SimpleInterface\" value: method \"SimpleInterfaceMethod\" declares the following error codes which were not part of the interface: [unknown-error]"),
    (b!"invalid.go", 282, b!"cannot use expression as \"SimpleInterface\" value: method \"SimpleInterfaceMethod\" declares the following error codes which were not part of the interface: [unknown-error]"),
    (b!"invalid.go", 288, b!"cannot use expression as \"SimpleInterface\" value: method \"SimpleInterfaceMethod\" declares the following error codes which were not part of the interface: [unknown-error]"),
    (b!"invalid.go", 289, b!"cannot use expression as \"SimpleInterface\" value: method \"SimpleInterfaceMethod\" declares the following error codes which were not part of the interface: [unknown-error]"),
    (b!"invalid.go", 292, b!"cannot use expression as \"SimpleInterface\" value: method \"SimpleInterfaceMethod\" declares the following error codes which were not part of the interface: [unknown-error]"),
    (b!"invalid.go", 301, b!"cannot use expression as \"SimpleInterface\" value: method \"SimpleInterfaceMethod\" declares the following error codes which were not part of the interface: [unknown-error]"),
    (b!"invalid.go", 304, b!"cannot use expression as \"SimpleInterface\" value: method \"SimpleInterfaceMethod\" declares the following error codes which were not part of the interface: [unknown-error]"),
    (b!"invalid.go", 307, b!"cannot use expression as \"SimpleInterface\" value: method \"SimpleInterfaceMethod\" declares the following error codes which were not part of the interface: [unknown-error]"),
    (b!"invalid.go", 313, b!"cannot use expression as \"SimpleInterface\" value: method \"SimpleInterfaceMethod\" declares the following error codes which were not part of the interface: [unknown-error]"),
    (b!"invalid.go", 316, b!"cannot use expression as \"SimpleInterface\" value: method \"SimpleInterfaceMethod\" declares the following error codes which were not part of the interface: [unknown-error]"),
    (b!"invalid.go", 317, b!"cannot use expression as \"SimpleInterface\" value: method \"SimpleInterfaceMethod\" declares the following error codes which were not part of the interface: [unknown-error]"),
    (b!"invalid.go", 322, b!"cannot use expression as \"SimpleInterface\" value: method \"SimpleInterfaceMethod\" declares the following error codes which were not part of the interface: [unknown-error]"),
    (b!"invalid.go", 323, b!"cannot use expression as \"SimpleInterface\" value: method \"SimpleInterfaceMethod\" declares the following error codes which were not part of the interface: [unknown-error]"),
    (b!"invalid.go", 327, b!"cannot use expression as \"SimpleInterface\" value: method \"SimpleInterfaceMethod\" declares the following error codes which were not part of the interface: [unknown-error]"),
    (b!"invalid.go", 328, b!"cannot use expression as \"SimpleInterface\" value: method \"SimpleInterfaceMethod\" declares the following error codes which were not part of the interface: [unknown-error]"),
    (b!"invalid.go", 332, b!"cannot use expression as \"SimpleInterface\" value: method \"SimpleInterfaceMethod\" declares the following error codes which were not part of the interface: [unknown-error]"),
    (b!"invalid.go", 338, b!"cannot use expression as \"SimpleInterface\" value: method \"SimpleInterfaceMethod\" declares the following error codes which were not part of the interface: [unknown-error]"),
    (b!"invalid.go", 339, b!"cannot use expression as \"SimpleInterface\" value: method \"SimpleInterfaceMethod\" declares the following error codes which were not part of the interface: [unknown-error]"),
    (b!"invalid.go", 342, b!"cannot use expression as \"SimpleInterface\" value: method \"SimpleInterfaceMethod\" declares the following error codes which were not part of the interface: [unknown-error]"),
    (b!"invalid.go", 351, b!"cannot use expression as \"SimpleInterface\" value: method \"SimpleInterfaceMethod\" declares the following error codes which were not part of the interface: [unknown-error]"),
    (b!"invalid.go", 356, b!"cannot use expression as \"SimpleInterface\" value: method \"SimpleInterfaceMethod\" declares the following error codes which were not part of the interface: [unknown-error]"),
    (b!"invalid.go", 359, b!"cannot use expression as \"SimpleInterface\" value: method \"SimpleInterfaceMethod\" declares the following error codes which were not part of the interface: [unknown-error]"),
    (b!"invalid.go", 360, b!"cannot use expression as \"SimpleInterface\" value: method \"SimpleInterfaceMethod\" declares the following error codes which were not part of the interface: [unknown-error]"),
    (b!"invalid.go", 365, b!"cannot use expression as \"SimpleInterface\" value: method \"SimpleInterfaceMethod\" declares the following error codes which were not part of the interface: [unknown-error]"),
    (b!"invalid.go", 369, b!"cannot use expression as \"SimpleInterface\" value: method \"SimpleInterfaceMethod\" declares the following error codes which were not part of the interface: [unknown-error]"),
    (b!"invalid.go", 373, b!"cannot use expression as \"SimpleInterface\" value: method \"SimpleInterfaceMethod\" declares the following error codes which were not part of the interface: [unknown-error]"),
    (b!"invalid.go", 379, b!"cannot use expression as \"SimpleInterface\" value: method \"SimpleInterfaceMethod\" declares the following error codes which were not part of the interface: [unknown-error]"),
    (b!"invalid.go", 382, b!"cannot use expression as \"SimpleInterface\" value: method \"SimpleInterfaceMethod\" declares the following error codes which were not part of the interface: [unknown-error]"),
    (b!"invalid.go", 386, b!"cannot use expression as \"SimpleInterface\" value: method \"SimpleInterfaceMethod\" declares the following error codes which were not part of the interface: [unknown-error]"),
    (b!"invalid.go", 390, b!"cannot use expression as \"SimpleInterface\" value: method \"SimpleInterfaceMethod\" declares the following error codes which were not part of the interface: [unknown-error]"),
    (b!"invalid.go", 395, b!"cannot use expression as \"SimpleInterface\" value: method \"SimpleInterfaceMethod\" declares the following error codes which were not part of the interface: [unknown-error]"),
    (b!"invalid.go", 397, b!"cannot use expression as \"SimpleInterface\" value: method \"SimpleInterfaceMethod\" declares the following error codes which were not part of the interface: [unknown-error]"),
    (b!"invalid.go", 396, b!"cannot use expression as \"SimpleInterface\" value: method \"SimpleInterfaceMethod\" declares the following error codes which were not part of the interface: [unknown-error]"),
    (b!"invalid.go", 397, b!"cannot use expression as \"SimpleInterface\" value: method \"SimpleInterfaceMethod\" declares the following error codes which were not part of the interface: [unknown-error]"),
    (b!"invalid.go", 404, b!"cannot use expression as \"SimpleInterface\" value: method \"SimpleInterfaceMethod\" declares the following error codes which were not part of the interface: [unknown-error]"),
    (b!"invalid.go", 418, b!"cannot use expression as \"SimpleInterface\" value: method \"SimpleInterfaceMethod\" declares the following error codes which were not part of the interface: [unknown-error]"),
    (b!"invalid.go", 426, b!"cannot use expression as \"SimpleInterface\" value: method \"SimpleInterfaceMethod\" declares the following error codes which were not part of the interface: [unknown-error]"),
    (b!"invalid.go", 434, b!"cannot use expression as \"SimpleInterface\" value: method \"SimpleInterfaceMethod\" declares the following error codes which were not part of the interface: [unknown-error]"),
    (b!"invalid.go", 442, b!"cannot use expression as \"SimpleInterface\" value: method \"SimpleInterfaceMethod\" declares the following error codes which were not part of the interface: [unknown-error]"),
    (b!"invalid.go", 446, b!"cannot use expression as \"SimpleInterface\" value: method \"SimpleInterfaceMethod\" declares the following error codes which were not part of the interface: [unknown-error]"),
    (b!"invalid.go", 450, b!"cannot use expression as \"SimpleInterface\" value: method \"SimpleInterfaceMethod\" declares the following error codes which were not part of the interface: [unknown-error]"),
    (b!"invalid.go", 455, b!"cannot use expression as \"SimpleInterface\" value: method \"SimpleInterfaceMethod\" declares the following error codes which were not part of the interface: [unknown-error]"),
    (b!"invalid.go", 455, b!"cannot use expression as \"SimpleInterface\" value: method \"SimpleInterfaceMethod\" declares the following error codes which were not part of the interface: [unknown-error]"),
    (b!"invalid.go", 462, b!"cannot use expression as \"SimpleInterface\" value: method \"SimpleInterfaceMethod\" declares the following error codes which were not part of the interface: [unknown-error]"),
    (b!"invalid.go", 462, b!"cannot use expression as \"SimpleInterface\" value: method \"SimpleInterfaceMethod\" declares the following error codes which were not part of the interface: [unknown-error]"),
    (b!"invalid.go", 469, b!"cannot use expression as \"SimpleInterface\" value: method \"SimpleInterfaceMethod\" declares the following error codes which were not part of the interface: [unknown-error]"),
    (b!"invalid.go", 473, b!"cannot use expression as \"SimpleInterface\" value: method \"SimpleInterfaceMethod\" declares the following error codes which were not part of the interface: [unknown-error]"),
    (b!"invalid.go", 499, b!"cannot use expression as \"SimpleInterface\" value: method \"SimpleInterfaceMethod\" declares the following error codes which were not part of the interface: [unknown-error]"),
    (b!"invalid.go", 507, b!"cannot use expression as \"SimpleInterface\" value: method \"SimpleInterfaceMethod\" declares the following error codes which were not part of the interface: [unknown-error]"),
    (b!"invalid.go", 515, b!"cannot use expression as \"SimpleInterface\" value: method \"SimpleInterfaceMethod\" declares the following error codes which were not part of the interface: [unknown-error]"),
    (b!"invalid.go", 523, b!"cannot use expression as \"SimpleInterface\" value: method \"SimpleInterfaceMethod\" declares the following error codes which were not part of the interface: [unknown-error]"),
    (b!"invalid.go", 531, b!"cannot use expression as \"SimpleInterface\" value: method \"SimpleInterfaceMethod\" declares the following error codes which were not part of the interface: [unknown-error]"),
    (b!"invalid.go", 535, b!"cannot use expression as \"SimpleInterface\" value: method \"SimpleInterfaceMethod\" declares the following error codes which were not part of the interface: [unknown-error]"),
    (b!"invalid.go", 539, b!"cannot use expression as \"SimpleInterface\" value: method \"SimpleInterfaceMethod\" declares the following error codes which were not part of the interface: [unknown-error]"),
    (b!"invalid.go", 544, b!"cannot use expression as \"SimpleInterface\" value: method \"SimpleInterfaceMethod\" declares the following error codes which were not part of the interface: [unknown-error]"),
    (b!"invalid.go", 544, b!"cannot use expression as \"SimpleInterface\" value: method \"SimpleInterfaceMethod\" declares the following error codes which were not part of the interface: [unknown-error]"),
    (b!"invalid.go", 551, b!"cannot use expression as \"SimpleInterface\" value: method \"SimpleInterfaceMethod\" declares the following error codes which were not part of the interface: [unknown-error]"),
    (b!"invalid.go", 551, b!"cannot use expression as \"SimpleInterface\" value: method \"SimpleInterfaceMethod\" declares the following error codes which were not part of the interface: [unknown-error]"),
    (b!"invalid.go", 558, b!"cannot use expression as \"SimpleInterface\" value: method \"SimpleInterfaceMethod\" declares the following error codes which were not part of the interface: [unknown-error]"),
    (b!"invalid.go", 562, b!"cannot use expression as \"SimpleInterface\" value: method \"SimpleInterfaceMethod\" declares the following error codes which were not part of the interface: [unknown-error]"),
    (b!"invalid.go", 570, b!"cannot use expression as \"SimpleInterface\" value: method \"SimpleInterfaceMethod\" declares the following error codes which were not part of the interface: [unknown-error]"),
    (b!"invalid.go", 574, b!"cannot use expression as \"SimpleInterface\" value: method \"SimpleInterfaceMethod\" declares the following error codes which were not part of the interface: [unknown-error]"),
    (b!"invalid.go", 575, b!"cannot use expression as \"SimpleInterface\" value: method \"SimpleInterfaceMethod\" declares the following error codes which were not part of the interface: [unknown-error]"),
    (b!"invalid.go", 577, b!"cannot use expression as \"SimpleInterface\" value: method \"SimpleInterfaceMethod\" declares the following error codes which were not part of the interface: [unknown-error]"),
    (b!"invalid.go", 578, b!"cannot use expression as \"SimpleInterface\" value: method \"SimpleInterfaceMethod\" declares the following error codes which were not part of the interface: [unknown-error]"),
    (b!"invalid.go", 582, b!"cannot use expression as \"SimpleInterface\" value: method \"SimpleInterfaceMethod\" declares the following error codes which were not part of the interface: [unknown-error]"),
    (b!"invalid.go", 590, b!"cannot use expression as \"SimpleInterface\" value: method \"SimpleInterfaceMethod\" declares the following error codes which were not part of the interface: [unknown-error]"),
    (b!"invalid.go", 592, b!"cannot use expression as \"SimpleInterface\" value: method \"SimpleInterfaceMethod\" declares the following error codes which were not part of the interface: [unknown-error]"),
    (b!"invalid.go", 594, b!"cannot use expression as \"SimpleInterface\" value: method \"SimpleInterfaceMethod\" declares the following error codes which were not part of the interface: [unknown-error]"),
    (b!"invalid.go", 596, b!"cannot use expression as \"SimpleInterface\" value: method \"SimpleInterfaceMethod\" declares the following error codes which were not part of the interface: [unknown-error]"),
    (b!"invalid.go", 642, b!"cannot use expression as \"someLocalInterface\" value: method \"local2\" declares the following error codes which were not part of the interface: [some-1-error some-2-error]"),
    (b!"invalid.go", 642, b!"cannot use expression as \"someLocalInterface\" value: method \"local1\" declares the following error codes which were not part of the interface: [unknown-error]"),
    (b!"invalid.go", 705, b!"cannot use expression as \"Interface1\" value: method \"I1\" declares the following error codes which were not part of the interface: [unknown-error]"),
    (b!"invalid.go", 705, b!"cannot use expression as \"Interface2\" value: method \"I2\" declares the following error codes which were not part of the interface: [unknown-error]"),
    (b!"invalid.go", 705, b!"cannot use expression as \"Interface3\" value: method \"I3\" declares the following error codes which were not part of the interface: [unknown-1-error unknown-2-error unknown-3-error]"),
    (b!"invalid.go", 714, b!"cannot use expression as \"EmbeddedSimpleInterface\" value: method \"SimpleInterfaceMethod\" declares the following error codes which were not part of the interface: [unknown-error]")]

/-- **C54**: for every run over the package, these lines are printed. -/
theorem prints : Check.Prints package Imported true names place lines :=
  Check.prints always (by decide +kernel)

end Serum.Testdata.interfaces
