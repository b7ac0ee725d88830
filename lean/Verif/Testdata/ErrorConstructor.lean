import Verif.Testdata.Support

/-!
# C54: the package analysis/testdata/src/error_constructor

Generated by `scripts/conformance/testdata.py` from error_constructor.go.  Numbers of syntax nodes, objects and types are arbitrary.  The tables hold
what `go/parser` and `go/types` say about the package.
-/

set_option maxRecDepth 100000
set_option linter.all false

namespace Serum.Testdata.errorConstructor
open Serum Serum.Testdata

def s0 : GoString := b!"NewError"
def s1 : GoString := b!"flag"
def s2 : GoString := b!"code"
def s3 : GoString := b!"NewError2"
def s4 : GoString := b!"MissingParam"
def s5 : GoString := b!"WrongParam"
def s6 : GoString := b!"_"
def s7 : GoString := b!"code2"
def s8 : GoString := b!"code1"
def s9 : GoString := b!"MismatchedCodesAndParams"
def s10 : GoString := b!"true"
def s11 : GoString := b!"codeMissing"
def s12 : GoString := b!"codeUnused"
def s13 : GoString := b!"CorrectFieldAssign"
def s14 : GoString := b!"err"
def s15 : GoString := b!"TheCode"
def s16 : GoString := b!"InvalidFieldAssign"
def s17 : GoString := b!"CallConstructor"
def s18 : GoString := b!"false"
def s19 : GoString := b!"CallConstructorFromConstructor"
def s20 : GoString := b!"RecursiveConstructor"
def s21 : GoString := b!"InvalidCallConstructor"
def s22 : GoString := b!"someCode"
def s23 : GoString := b!"InvalidCallConstructor2"
def s24 : GoString := b!"InvalidCallConstructor3"
def s25 : GoString := b!"postFix"
def s26 : GoString := b!"InvalidUseOfCodeParam"
def s27 : GoString := b!"InvalidUseOfCodeParam2"
def s28 : GoString := b!"lambda"
def s29 : GoString := b!"EmptyStringConstruct"
def s30 : GoString := b!"AssignToParam"
def s31 : GoString := b!"otherError"
def s32 : GoString := b!"other"
def s33 : GoString := b!"constant"
def s34 : GoString := b!"Code"
def s35 : GoString := b!"e"
def s36 : GoString := b!"Message"
def s37 : GoString := b!"Details"
def s38 : GoString := b!"nil"
def s39 : GoString := b!"Cause"
def s40 : GoString := b!"Error"
def s41 : GoString := b!"unknown-error"
def s42 : GoString := b!"missing-1-error"
def s43 : GoString := b!"missing-2-error"
def s44 : GoString := b!"hello-error"
def s45 : GoString := b!"some-error"
def s46 : GoString := b!"param-error"
def s47 : GoString := b!"-error"
def s48 : GoString := b!"another-"
def s49 : GoString := b!""
def s50 : GoString := b!"-invalid"
def s51 : GoString := b!"other-error"
def s52 : GoString := b!"// want NewError2:\"ErrorConstructor: {CodeParamPosition:0}\" NewError2:\"ErrorCodes:\""
def s53 : GoString := b!"// want MissingParam:\"ErrorCodes:\""
def s54 : GoString := b!"// want `require an error code parameter declaration to use \"code\" as an error code`"
def s55 : GoString := b!"// want `require an error code parameter declaration to use \"code1\" as an error code`"
def s56 : GoString := b!"// want CallConstructor:\"ErrorCodes: param-error unknown-error\""
def s57 : GoString := b!"// want CallConstructorFromConstructor:\"ErrorConstructor: {CodeParamPosition:0}\" CallConstructorFromConstructor:\"ErrorCodes: unknown-error\""
def s58 : GoString := b!"// want `error code has to be constant value or error code parameter`"
def s59 : GoString := b!"// want InvalidCallConstructor2:\"ErrorCodes:\""
def s60 : GoString := b!"// want `require an error code parameter declaration to use \"someCode\" as an error code`"
def s61 : GoString := b!"// want InvalidUseOfCodeParam:\"ErrorConstructor: {CodeParamPosition:0}\" InvalidUseOfCodeParam:\"ErrorCodes:\""
def s62 : GoString := b!"// want \"error code has to be constant value or error code parameter\""
def s63 : GoString := b!"// want EmptyStringConstruct:\"ErrorCodes:\""
def s64 : GoString := b!"// NewError is a constructor for Error using the code parameter."
def s65 : GoString := b!"//"
def s66 : GoString := b!"// Errors:"
def s67 : GoString := b!"//    - param: code   -- is used if the provided flag is true"
def s68 : GoString := b!"//    - unknown-error -- is used otherwise"
def s69 : GoString := b!"//    - param: code --"
def s70 : GoString := b!"// MissingParam returns an error using the parameter \"code\" as the error code,"
def s71 : GoString := b!"// but never declares an error code parameter"
def s72 : GoString := b!"// Errors: none"
def s73 : GoString := b!"// WrongParam declares the wrong parameter as error code parameter."
def s74 : GoString := b!"//    - param: code2 -- unused param"
def s75 : GoString := b!"// MismatchedCodesAndParams has multiple error code and error code parameter mismatches."
def s76 : GoString := b!"//    - hello-error       -- error that might be returned"
def s77 : GoString := b!"//    - unused-error      -- never returned"
def s78 : GoString := b!"//    - param: codeUnused -- never used"
def s79 : GoString := b!"//    - some-error  --"
def s80 : GoString := b!"//    - param-error   --"
def s81 : GoString := b!"//    - unknown-error --"
def s82 : GoString := b!"//    - param: code   --"
def s83 : GoString := b!"//    - param-error --"
def s84 : GoString := b!"//    - param: code -- error code parameter"
def s85 : GoString := b!"//    - some-error  -- assigned to error code parameter"
def s86 : GoString := b!"//    - other-error  -- indirectly assigned to error code parameter"
def s87 : GoString := b!"ConstructorInterface"
def s88 : GoString := b!"string"
/-- error_constructor.go:9: `func NewError` -/
def f0 : FuncDef := ⟨2755, some ⟨2728, s0, (some 0)⟩, ⟨[⟨[⟨2729, s2, (some 1)⟩], 2730⟩, ⟨[⟨2731, s1, (some 2)⟩], 2732⟩], (some [⟨[], 2736⟩]), 251⟩,
  some [.other 2748 [.ident ⟨2740, s1, (some 2)⟩, .other 2747 [.ret 2746 [.unary 2745 true (.compositeLit 2744 [.ident ⟨2743, s2, (some 1)⟩])]]],
  .ret 2753 [.unary 2752 true (.compositeLit 2751 [.basicLit 2750])]], 257, 424⟩
/-- error_constructor.go:21: `func NewError2` -/
def f1 : FuncDef := ⟨2771, some ⟨2756, s3, (some 4)⟩, ⟨[⟨[⟨2757, s2, (some 5)⟩], 2758⟩], (some [⟨[], 2761⟩]), 559⟩, some [.ret 2769 [.unary 2768
  true (.compositeLit 2767 [.ident ⟨2766, s2, (some 5)⟩])]], 565, 673⟩
/-- error_constructor.go:29: `func MissingParam` -/
def f2 : FuncDef := ⟨2787, some ⟨2772, s4, (some 6)⟩, ⟨[⟨[⟨2773, s2, (some 7)⟩], 2774⟩], (some [⟨[], 2777⟩]), 850⟩, some [.ret 2785 [.unary 2784
  true (.compositeLit 2783 [.ident ⟨2782, s2, (some 7)⟩])]], 856, 1000⟩
/-- error_constructor.go:38: `func WrongParam` -/
def f3 : FuncDef := ⟨2807, some ⟨2788, s5, (some 8)⟩, ⟨[⟨[⟨2789, s8, (some 9)⟩, ⟨2790, s7, (some 10)⟩], 2791⟩], (some [⟨[], 2794⟩]), 1161⟩, some
  [.assign 2800 [.ident ⟨2798, s6, none⟩] [.ident ⟨2799, s7, (some 10)⟩], .ret 2805 [.unary 2804 true (.compositeLit 2803 [.ident ⟨2802, s8, (some
  9)⟩])]], 1167, 1386⟩
/-- error_constructor.go:53: `func MismatchedCodesAndParams` -/
def f4 : FuncDef := ⟨2848, some ⟨2808, s9, (some 11)⟩, ⟨[⟨[⟨2809, s12, (some 12)⟩, ⟨2810, s11, (some 13)⟩], 2811⟩], (some [⟨[], 2814⟩]), 1698⟩, some
  [.other 2846 [.other 2845 [.caseClause 2824 [.ident ⟨2818, s10, none⟩] [.ret 2823 [.unary 2822 true (.compositeLit 2821 [.basicLit 2820])]],
  .caseClause 2831 [.ident ⟨2825, s10, none⟩] [.ret 2830 [.unary 2829 true (.compositeLit 2828 [.basicLit 2827])]], .caseClause 2838 [.ident ⟨2832,
  s10, none⟩] [.ret 2837 [.unary 2836 true (.compositeLit 2835 [.ident ⟨2834, s11, (some 13)⟩])]], .caseClause 2844 [] [.ret 2843 [.unary 2842 true
  (.compositeLit 2841 [.basicLit 2840])]]]]], 1704, 2310⟩
/-- error_constructor.go:74: `func CorrectFieldAssign` -/
def f5 : FuncDef := ⟨2879, some ⟨2849, s13, (some 14)⟩, ⟨[⟨[⟨2850, s2, (some 15)⟩], 2851⟩, ⟨[⟨2852, s1, (some 16)⟩], 2853⟩], (some [⟨[], 2857⟩]),
  2420⟩, some [.assign 2866 [.ident ⟨2861, s14, (some 17)⟩] [.unary 2865 true (.compositeLit 2864 [.basicLit 2863])], .other 2875 [.ident ⟨2867, s1,
  (some 16)⟩, .other 2874 [.assign 2873 [.selector 2871 (.ident ⟨2869, s14, (some 17)⟩) ⟨2870, s15, none⟩] [.ident ⟨2872, s2, (some 15)⟩]]], .ret
  2877 [.ident ⟨2876, s14, (some 17)⟩]], 2426, 2618⟩
/-- error_constructor.go:85: `func InvalidFieldAssign` -/
def f6 : FuncDef := ⟨2910, some ⟨2880, s16, (some 18)⟩, ⟨[⟨[⟨2881, s2, (some 19)⟩], 2882⟩, ⟨[⟨2883, s1, (some 20)⟩], 2884⟩], (some [⟨[], 2888⟩]),
  2705⟩, some [.assign 2897 [.ident ⟨2892, s14, (some 21)⟩] [.unary 2896 true (.compositeLit 2895 [.basicLit 2894])], .other 2906 [.ident ⟨2898, s1,
  (some 20)⟩, .other 2905 [.assign 2904 [.selector 2902 (.ident ⟨2900, s14, (some 21)⟩) ⟨2901, s15, none⟩] [.ident ⟨2903, s2, (some 19)⟩]]], .ret
  2908 [.ident ⟨2907, s14, (some 21)⟩]], 2711, 2927⟩
/-- error_constructor.go:97: `func CallConstructor` -/
def f7 : FuncDef := ⟨2923, some ⟨2911, s17, (some 22)⟩, ⟨[], (some [⟨[], 2913⟩]), 3016⟩, some [.ret 2921 [.call 2920 (.ident ⟨2917, s0, (some 0)⟩)
  [.basicLit 2918, .ident ⟨2919, s18, none⟩]]], 3022, 3128⟩
/-- error_constructor.go:105: `func CallConstructorFromConstructor` -/
def f8 : FuncDef := ⟨2939, some ⟨2924, s19, (some 23)⟩, ⟨[⟨[⟨2925, s2, (some 24)⟩], 2926⟩], (some [⟨[], 2929⟩]), 3243⟩, some [.ret 2937 [.call 2936
  (.ident ⟨2933, s0, (some 0)⟩) [.ident ⟨2934, s2, (some 24)⟩, .ident ⟨2935, s18, none⟩]]], 3249, 3422⟩
/-- error_constructor.go:113: `func RecursiveConstructor` -/
def f9 : FuncDef := ⟨2962, some ⟨2940, s20, (some 25)⟩, ⟨[⟨[⟨2941, s2, (some 26)⟩], 2942⟩], (some [⟨[], 2945⟩]), 3523⟩, some [.other 2956 [.ident
  ⟨2949, s18, none⟩, .other 2955 [.ret 2954 [.call 2953 (.ident ⟨2951, s20, (some 25)⟩) [.ident ⟨2952, s2, (some 26)⟩]]]], .ret 2960 [.call 2959
  (.ident ⟨2957, s3, (some 4)⟩) [.basicLit 2958]]], 3529, 3734⟩
/-- error_constructor.go:121: `func InvalidCallConstructor` -/
def f10 : FuncDef := ⟨2980, some ⟨2963, s21, (some 27)⟩, ⟨[], (some [⟨[], 2965⟩]), 3782⟩, some [.other 2974 [.other 2973 [.valueSpec 2972 [⟨2969,
  s22, (some 28)⟩] (some 2970) [.basicLit 2971]]], .ret 2978 [.call 2977 (.ident ⟨2975, s3, (some 4)⟩) [.ident ⟨2976, s22, (some 28)⟩]]], 3788,
  3970⟩
/-- error_constructor.go:127: `func InvalidCallConstructor2` -/
def f11 : FuncDef := ⟨2995, some ⟨2981, s23, (some 29)⟩, ⟨[⟨[⟨2982, s22, (some 30)⟩], 2983⟩], (some [⟨[], 2986⟩]), 4034⟩, some [.ret 2993 [.call
  2992 (.ident ⟨2990, s3, (some 4)⟩) [.ident ⟨2991, s22, (some 30)⟩]]], 4040, 4206⟩
/-- error_constructor.go:132: `func InvalidCallConstructor3` -/
def f12 : FuncDef := ⟨3015, some ⟨2996, s24, (some 31)⟩, ⟨[], (some [⟨[], 2998⟩]), 4255⟩, some [.other 3007 [.other 3006 [.valueSpec 3005 [⟨3002,
  s25, (some 32)⟩] (some 3003) [.basicLit 3004]]], .ret 3013 [.call 3012 (.ident ⟨3008, s3, (some 4)⟩) [.other 3011 [.basicLit 3009, .ident ⟨3010,
  s25, (some 32)⟩]]]], 4261, 4451⟩
/-- error_constructor.go:140: `func InvalidUseOfCodeParam` -/
def f13 : FuncDef := ⟨3040, some ⟨3016, s26, (some 33)⟩, ⟨[⟨[⟨3017, s2, (some 34)⟩], 3018⟩], (some [⟨[], 3021⟩]), 4530⟩, some [.ret 3038 [.call 3037
  (.funcLit 3036 14 ⟨[], (some [⟨[], 3026⟩]), 4661⟩ [.ret 3034 [.unary 3033 true (.compositeLit 3032 [.ident ⟨3031, s2, (some 34)⟩])]]) []]], 4536,
  4767⟩
/-- error_constructor.go:141: a function literal -/
def f14 : FuncDef := ⟨3036, none, ⟨[], (some [⟨[], 3026⟩]), 4661⟩, some [.ret 3034 [.unary 3033 true (.compositeLit 3032 [.ident ⟨3031, s2, (some
  34)⟩])]], 4667, 4763⟩
/-- error_constructor.go:149: `func InvalidUseOfCodeParam2` -/
def f15 : FuncDef := ⟨3058, some ⟨3041, s27, (some 35)⟩, ⟨[⟨[⟨3042, s2, (some 36)⟩], 3043⟩], (some [⟨[], 3046⟩]), 4847⟩, some [.assign 3052 [.ident
  ⟨3050, s28, (some 37)⟩] [.ident ⟨3051, s3, (some 4)⟩], .ret 3056 [.call 3055 (.ident ⟨3053, s28, (some 37)⟩) [.ident ⟨3054, s2, (some 36)⟩]]],
  4853, 5067⟩
/-- error_constructor.go:155: `func EmptyStringConstruct` -/
def f16 : FuncDef := ⟨3070, some ⟨3059, s29, (some 38)⟩, ⟨[], (some [⟨[], 3061⟩]), 5113⟩, some [.ret 3068 [.call 3067 (.ident ⟨3065, s3, (some 4)⟩)
  [.basicLit 3066]]], 5119, 5187⟩
/-- error_constructor.go:164: `func AssignToParam` -/
def f17 : FuncDef := ⟨3136, some ⟨3071, s30, (some 39)⟩, ⟨[⟨[⟨3072, s6, (some 40)⟩], 3073⟩, ⟨[⟨3074, s32, (some 41)⟩, ⟨3075, s2, (some 42)⟩],
  3076⟩], (some [⟨[], 3080⟩]), 5417⟩, some [.other 3088 [.other 3087 [.valueSpec 3086 [⟨3084, s31, (some 43)⟩] (some 3085) []]], .other 3130 [.other
  3129 [.caseClause 3093 [.ident ⟨3089, s10, none⟩] [.assign 3092 [.ident ⟨3090, s2, (some 42)⟩] [.basicLit 3091]], .caseClause 3098 [.ident ⟨3094,
  s10, none⟩] [.assign 3097 [.ident ⟨3095, s2, (some 42)⟩] [.basicLit 3096]], .caseClause 3103 [.ident ⟨3099, s10, none⟩] [.assign 3102 [.ident
  ⟨3100, s2, (some 42)⟩] [.ident ⟨3101, s32, (some 41)⟩]], .caseClause 3108 [.ident ⟨3104, s10, none⟩] [.assign 3107 [.ident ⟨3105, s2, (some 42)⟩]
  [.basicLit 3106]], .caseClause 3118 [.ident ⟨3109, s10, none⟩] [.other 3114 [.other 3113 [.valueSpec 3112 [⟨3110, s33, (some 44)⟩] none [.basicLit
  3111]]], .assign 3117 [.ident ⟨3115, s31, (some 43)⟩] [.ident ⟨3116, s33, (some 44)⟩]], .caseClause 3123 [.ident ⟨3119, s10, none⟩] [.assign 3122
  [.ident ⟨3120, s2, (some 42)⟩] [.ident ⟨3121, s31, (some 43)⟩]], .caseClause 3128 [.ident ⟨3124, s10, none⟩] [.assign 3127 [.ident ⟨3125, s31,
  (some 43)⟩] [.basicLit 3126]]]], .ret 3134 [.call 3133 (.ident ⟨3131, s3, (some 4)⟩) [.ident ⟨3132, s2, (some 42)⟩]]], 5423, 6095⟩
/-- error_constructor.go:197: `func Code` -/
def f18 : FuncDef := ⟨3177, some ⟨3166, s34, none⟩, ⟨[], (some [⟨[], 3168⟩]), 6425⟩, some [.ret 3175 [.selector 3174 (.ident ⟨3172, s35, (some 49)⟩)
  ⟨3173, s15, none⟩]], 6446, 6466⟩
/-- error_constructor.go:198: `func Message` -/
def f19 : FuncDef := ⟨3194, some ⟨3183, s36, none⟩, ⟨[], (some [⟨[], 3185⟩]), 6493⟩, some [.ret 3192 [.selector 3191 (.ident ⟨3189, s35, (some 50)⟩)
  ⟨3190, s15, none⟩]], 6511, 6531⟩
/-- error_constructor.go:199: `func Details` -/
def f20 : FuncDef := ⟨3211, some ⟨3200, s37, none⟩, ⟨[], (some [⟨[], 3204⟩]), 6558⟩, some [.ret 3209 [.ident ⟨3208, s38, none⟩]], 6576, 6590⟩
/-- error_constructor.go:200: `func Cause` -/
def f21 : FuncDef := ⟨3226, some ⟨3217, s39, none⟩, ⟨[], (some [⟨[], 3219⟩]), 6615⟩, some [.ret 3224 [.ident ⟨3223, s38, none⟩]], 6635, 6649⟩
/-- error_constructor.go:201: `func Error` -/
def f22 : FuncDef := ⟨3244, some ⟨3232, s40, none⟩, ⟨[], (some [⟨[], 3234⟩]), 6674⟩, some [.ret 3242 [.call 3241 (.selector 3240 (.ident ⟨3238, s35,
  (some 53)⟩) ⟨3239, s36, none⟩) []]], 6694, 6716⟩
/-- The objects of go/ast, in the order of their numbers. -/
def objects : List ObjInfo := [
  ⟨.fun_, 218, (.funcDecl 0)⟩,
  ⟨.var, 227, .other⟩,
  ⟨.var, 240, .other⟩,
  ⟨.typ, 6298, .typeSpec⟩,
  ⟨.fun_, 536, (.funcDecl 1)⟩,
  ⟨.var, 546, .other⟩,
  ⟨.fun_, 824, (.funcDecl 2)⟩,
  ⟨.var, 837, .other⟩,
  ⟨.fun_, 1129, (.funcDecl 3)⟩,
  ⟨.var, 1140, .other⟩,
  ⟨.var, 1147, .other⟩,
  ⟨.fun_, 1641, (.funcDecl 4)⟩,
  ⟨.var, 1666, .other⟩,
  ⟨.var, 1678, .other⟩,
  ⟨.fun_, 2377, (.funcDecl 5)⟩,
  ⟨.var, 2396, .other⟩,
  ⟨.var, 2409, .other⟩,
  ⟨.var, 2542, .other⟩,
  ⟨.fun_, 2662, (.funcDecl 6)⟩,
  ⟨.var, 2681, .other⟩,
  ⟨.var, 2694, .other⟩,
  ⟨.var, 2766, .other⟩,
  ⟨.fun_, 2998, (.funcDecl 7)⟩,
  ⟨.fun_, 3199, (.funcDecl 8)⟩,
  ⟨.var, 3230, .other⟩,
  ⟨.fun_, 3489, (.funcDecl 9)⟩,
  ⟨.var, 3510, .other⟩,
  ⟨.fun_, 3757, (.funcDecl 10)⟩,
  ⟨.var, 3840, (.valueSpec [⟨2969, s22, (some 28)⟩] [.basicLit 2971])⟩,
  ⟨.fun_, 3993, (.funcDecl 11)⟩,
  ⟨.var, 4017, .other⟩,
  ⟨.fun_, 4229, (.funcDecl 12)⟩,
  ⟨.var, 4314, (.valueSpec [⟨3002, s25, (some 32)⟩] [.basicLit 3004])⟩,
  ⟨.fun_, 4495, (.funcDecl 13)⟩,
  ⟨.var, 4517, .other⟩,
  ⟨.fun_, 4811, (.funcDecl 15)⟩,
  ⟨.var, 4834, .other⟩,
  ⟨.var, 4966, .other⟩,
  ⟨.fun_, 5090, (.funcDecl 16)⟩,
  ⟨.fun_, 5376, (.funcDecl 17)⟩,
  ⟨.var, 5390, .other⟩,
  ⟨.var, 5397, .other⟩,
  ⟨.var, 5404, .other⟩,
  ⟨.var, 5545, (.valueSpec [⟨3084, s31, (some 43)⟩] [])⟩,
  ⟨.con, 5889, (.valueSpec [⟨3110, s33, (some 44)⟩] [.basicLit 3111])⟩,
  ⟨.typ, 6102, .typeSpec⟩,
  ⟨.fun_, 6176, .other⟩,
  ⟨.var, 6185, .other⟩,
  ⟨.var, 6384, .other⟩,
  ⟨.var, 6408, .other⟩,
  ⟨.var, 6473, .other⟩,
  ⟨.var, 6538, .other⟩,
  ⟨.var, 6597, .other⟩,
  ⟨.var, 6656, .other⟩]
/-- Types of expressions (`Info.Types`, `Info.Defs`, `Info.Uses`). -/
def typeTable : Tree GoType := (.node (.node (.node (.node (.node (.node (.node (.node (.node Tree.nil 2728 (.signature 26) Tree.nil) 2729 (.string)
  Tree.nil) 2730 (.string) (.node Tree.nil 2731 (.other 10) Tree.nil)) 2732 (.other 10) (.node (.node Tree.nil 2736 (.named 19) Tree.nil) 2739
  (.signature 26) (.node Tree.nil 2740 (.other 10) Tree.nil))) 2742 (.named 302) (.node (.node (.node (.node Tree.nil 2743 (.string) Tree.nil) 2744
  (.named 302) Tree.nil) 2745 (.pointer (.named 302)) (.node Tree.nil 2749 (.named 302) Tree.nil)) 2750 (.string) (.node (.node Tree.nil 2751
  (.named 302) Tree.nil) 2752 (.pointer (.named 302)) (.node Tree.nil 2756 (.signature 22) Tree.nil)))) 2757 (.string) (.node (.node (.node (.node
  (.node Tree.nil 2758 (.string) Tree.nil) 2761 (.named 19) Tree.nil) 2764 (.signature 22) (.node Tree.nil 2765 (.named 302) Tree.nil)) 2766
  (.string) (.node (.node Tree.nil 2767 (.named 302) Tree.nil) 2768 (.pointer (.named 302)) (.node Tree.nil 2772 (.signature 22) Tree.nil))) 2773
  (.string) (.node (.node (.node (.node Tree.nil 2774 (.string) Tree.nil) 2777 (.named 19) Tree.nil) 2780 (.signature 22) (.node Tree.nil 2781
  (.named 302) Tree.nil)) 2782 (.string) (.node (.node Tree.nil 2783 (.named 302) Tree.nil) 2784 (.pointer (.named 302)) (.node Tree.nil 2788
  (.signature 27) Tree.nil))))) 2789 (.string) (.node (.node (.node (.node (.node (.node Tree.nil 2790 (.string) Tree.nil) 2791 (.string) Tree.nil)
  2794 (.named 19) (.node Tree.nil 2797 (.signature 27) Tree.nil)) 2799 (.string) (.node (.node Tree.nil 2801 (.named 302) Tree.nil) 2802 (.string)
  (.node Tree.nil 2803 (.named 302) Tree.nil))) 2804 (.pointer (.named 302)) (.node (.node (.node (.node Tree.nil 2808 (.signature 27) Tree.nil)
  2809 (.string) Tree.nil) 2810 (.string) (.node Tree.nil 2811 (.string) Tree.nil)) 2814 (.named 19) (.node (.node Tree.nil 2817 (.signature 27)
  Tree.nil) 2818 (.other 10) (.node Tree.nil 2819 (.named 302) Tree.nil)))) 2820 (.string) (.node (.node (.node (.node (.node Tree.nil 2821 (.named
  302) Tree.nil) 2822 (.pointer (.named 302)) Tree.nil) 2825 (.other 10) (.node Tree.nil 2826 (.named 302) Tree.nil)) 2827 (.string) (.node (.node
  Tree.nil 2828 (.named 302) Tree.nil) 2829 (.pointer (.named 302)) (.node Tree.nil 2832 (.other 10) Tree.nil))) 2833 (.named 302) (.node (.node
  (.node Tree.nil 2834 (.string) Tree.nil) 2835 (.named 302) (.node Tree.nil 2836 (.pointer (.named 302)) Tree.nil)) 2839 (.named 302) (.node (.node
  Tree.nil 2840 (.string) Tree.nil) 2841 (.named 302) (.node Tree.nil 2842 (.pointer (.named 302)) Tree.nil)))))) 2849 (.signature 26) (.node (.node
  (.node (.node (.node (.node (.node Tree.nil 2850 (.string) Tree.nil) 2851 (.string) Tree.nil) 2852 (.other 10) (.node Tree.nil 2853 (.other 10)
  Tree.nil)) 2857 (.named 19) (.node (.node Tree.nil 2860 (.signature 26) Tree.nil) 2861 (.pointer (.named 302)) (.node Tree.nil 2862 (.named 302)
  Tree.nil))) 2863 (.string) (.node (.node (.node (.node Tree.nil 2864 (.named 302) Tree.nil) 2865 (.pointer (.named 302)) Tree.nil) 2867 (.other
  10) (.node Tree.nil 2869 (.pointer (.named 302)) Tree.nil)) 2870 (.string) (.node (.node Tree.nil 2871 (.string) Tree.nil) 2872 (.string) (.node
  Tree.nil 2876 (.pointer (.named 302)) Tree.nil)))) 2880 (.signature 26) (.node (.node (.node (.node (.node Tree.nil 2881 (.string) Tree.nil) 2882
  (.string) Tree.nil) 2883 (.other 10) (.node Tree.nil 2884 (.other 10) Tree.nil)) 2888 (.named 19) (.node (.node Tree.nil 2891 (.signature 26)
  Tree.nil) 2892 (.pointer (.named 302)) (.node Tree.nil 2893 (.named 302) Tree.nil))) 2894 (.string) (.node (.node (.node (.node Tree.nil 2895
  (.named 302) Tree.nil) 2896 (.pointer (.named 302)) Tree.nil) 2898 (.other 10) (.node Tree.nil 2900 (.pointer (.named 302)) Tree.nil)) 2901
  (.string) (.node (.node Tree.nil 2902 (.string) Tree.nil) 2903 (.string) (.node Tree.nil 2907 (.pointer (.named 302)) Tree.nil))))) 2911
  (.signature 6) (.node (.node (.node (.node (.node (.node Tree.nil 2913 (.named 19) Tree.nil) 2916 (.signature 6) Tree.nil) 2917 (.signature 26)
  (.node Tree.nil 2918 (.string) Tree.nil)) 2919 (.other 10) (.node (.node Tree.nil 2920 (.named 19) Tree.nil) 2924 (.signature 22) (.node Tree.nil
  2925 (.string) Tree.nil))) 2926 (.string) (.node (.node (.node (.node Tree.nil 2929 (.named 19) Tree.nil) 2932 (.signature 22) Tree.nil) 2933
  (.signature 26) (.node Tree.nil 2934 (.string) Tree.nil)) 2935 (.other 10) (.node (.node Tree.nil 2936 (.named 19) Tree.nil) 2940 (.signature 22)
  (.node Tree.nil 2941 (.string) Tree.nil)))) 2942 (.string) (.node (.node (.node (.node (.node Tree.nil 2945 (.named 19) Tree.nil) 2948 (.signature
  22) Tree.nil) 2949 (.other 10) (.node Tree.nil 2951 (.signature 22) Tree.nil)) 2952 (.string) (.node (.node Tree.nil 2953 (.named 19) Tree.nil)
  2957 (.signature 22) (.node Tree.nil 2958 (.string) Tree.nil))) 2959 (.named 19) (.node (.node (.node Tree.nil 2963 (.signature 6) Tree.nil) 2965
  (.named 19) (.node Tree.nil 2968 (.signature 6) Tree.nil)) 2969 (.string) (.node (.node Tree.nil 2970 (.string) Tree.nil) 2971 (.string) (.node
  Tree.nil 2975 (.signature 22) Tree.nil))))))) 2976 (.string) (.node (.node (.node (.node (.node (.node (.node (.node Tree.nil 2977 (.named 19)
  Tree.nil) 2981 (.signature 22) Tree.nil) 2982 (.string) (.node Tree.nil 2983 (.string) Tree.nil)) 2986 (.named 19) (.node (.node Tree.nil 2989
  (.signature 22) Tree.nil) 2990 (.signature 22) (.node Tree.nil 2991 (.string) Tree.nil))) 2992 (.named 19) (.node (.node (.node (.node Tree.nil
  2996 (.signature 6) Tree.nil) 2998 (.named 19) Tree.nil) 3001 (.signature 6) (.node Tree.nil 3002 (.string) Tree.nil)) 3003 (.string) (.node
  (.node Tree.nil 3004 (.string) Tree.nil) 3008 (.signature 22) (.node Tree.nil 3009 (.string) Tree.nil)))) 3010 (.string) (.node (.node (.node
  (.node (.node Tree.nil 3011 (.string) Tree.nil) 3012 (.named 19) Tree.nil) 3016 (.signature 22) (.node Tree.nil 3017 (.string) Tree.nil)) 3018
  (.string) (.node (.node Tree.nil 3021 (.named 19) Tree.nil) 3024 (.signature 22) (.node Tree.nil 3026 (.named 19) Tree.nil))) 3029 (.signature 6)
  (.node (.node (.node (.node Tree.nil 3030 (.named 302) Tree.nil) 3031 (.string) Tree.nil) 3032 (.named 302) (.node Tree.nil 3033 (.pointer (.named
  302)) Tree.nil)) 3036 (.signature 6) (.node (.node Tree.nil 3037 (.named 19) Tree.nil) 3041 (.signature 22) (.node Tree.nil 3042 (.string)
  Tree.nil))))) 3043 (.string) (.node (.node (.node (.node (.node (.node Tree.nil 3046 (.named 19) Tree.nil) 3049 (.signature 22) Tree.nil) 3050
  (.signature 22) (.node Tree.nil 3051 (.signature 22) Tree.nil)) 3053 (.signature 22) (.node (.node Tree.nil 3054 (.string) Tree.nil) 3055 (.named
  19) (.node Tree.nil 3059 (.signature 6) Tree.nil))) 3061 (.named 19) (.node (.node (.node (.node Tree.nil 3064 (.signature 6) Tree.nil) 3065
  (.signature 22) Tree.nil) 3066 (.string) (.node Tree.nil 3067 (.named 19) Tree.nil)) 3071 (.signature 30) (.node (.node Tree.nil 3072 (.other 8)
  Tree.nil) 3073 (.other 8) (.node Tree.nil 3074 (.string) Tree.nil)))) 3075 (.string) (.node (.node (.node (.node (.node Tree.nil 3076 (.string)
  Tree.nil) 3080 (.named 19) Tree.nil) 3083 (.signature 30) (.node Tree.nil 3084 (.string) Tree.nil)) 3085 (.string) (.node (.node Tree.nil 3089
  (.other 10) Tree.nil) 3090 (.string) (.node Tree.nil 3091 (.string) Tree.nil))) 3094 (.other 10) (.node (.node (.node Tree.nil 3095 (.string)
  Tree.nil) 3096 (.string) (.node Tree.nil 3099 (.other 10) Tree.nil)) 3100 (.string) (.node (.node Tree.nil 3101 (.string) Tree.nil) 3104 (.other
  10) (.node Tree.nil 3105 (.string) Tree.nil)))))) 3106 (.string) (.node (.node (.node (.node (.node (.node (.node Tree.nil 3109 (.other 10)
  Tree.nil) 3110 (.other 31) Tree.nil) 3111 (.other 31) (.node Tree.nil 3115 (.string) Tree.nil)) 3116 (.string) (.node (.node Tree.nil 3119 (.other
  10) Tree.nil) 3120 (.string) (.node Tree.nil 3121 (.string) Tree.nil))) 3124 (.other 10) (.node (.node (.node (.node Tree.nil 3125 (.string)
  Tree.nil) 3126 (.string) Tree.nil) 3131 (.signature 22) (.node Tree.nil 3132 (.string) Tree.nil)) 3133 (.named 19) (.node (.node Tree.nil 3137
  (.named 301) Tree.nil) 3138 (.signature 32) (.node Tree.nil 3140 (.string) Tree.nil)))) 3143 (.named 302) (.node (.node (.node (.node (.node
  Tree.nil 3144 (.pointer (.named 302)) Tree.nil) 3147 (.signature 32) Tree.nil) 3150 (.interface 29) (.node Tree.nil 3153 (.named 302) Tree.nil))
  3154 (.string) (.node (.node Tree.nil 3155 (.string) Tree.nil) 3158 (.struct 1) (.node Tree.nil 3161 (.pointer (.named 302)) Tree.nil))) 3162
  (.named 302) (.node (.node (.node Tree.nil 3163 (.pointer (.named 302)) Tree.nil) 3166 (.signature 11) (.node Tree.nil 3168 (.string) Tree.nil))
  3171 (.signature 11) (.node (.node Tree.nil 3172 (.pointer (.named 302)) Tree.nil) 3173 (.string) (.node Tree.nil 3174 (.string) Tree.nil)))))
  3178 (.pointer (.named 302)) (.node (.node (.node (.node (.node (.node Tree.nil 3179 (.named 302) Tree.nil) 3180 (.pointer (.named 302)) Tree.nil)
  3183 (.signature 11) (.node Tree.nil 3185 (.string) Tree.nil)) 3188 (.signature 11) (.node (.node Tree.nil 3189 (.pointer (.named 302)) Tree.nil)
  3190 (.string) (.node Tree.nil 3191 (.string) Tree.nil))) 3195 (.pointer (.named 302)) (.node (.node (.node (.node Tree.nil 3196 (.named 302)
  Tree.nil) 3197 (.pointer (.named 302)) Tree.nil) 3200 (.signature 23) (.node Tree.nil 3202 (.string) Tree.nil)) 3203 (.string) (.node (.node
  Tree.nil 3204 (.map (.string) (.string)) Tree.nil) 3207 (.signature 23) (.node Tree.nil 3208 (.untypedNil) Tree.nil)))) 3212 (.pointer (.named
  302)) (.node (.node (.node (.node (.node Tree.nil 3213 (.named 302) Tree.nil) 3214 (.pointer (.named 302)) Tree.nil) 3217 (.signature 6) (.node
  Tree.nil 3219 (.named 19) Tree.nil)) 3222 (.signature 6) (.node (.node Tree.nil 3223 (.untypedNil) Tree.nil) 3227 (.pointer (.named 302)) (.node
  Tree.nil 3228 (.named 302) Tree.nil))) 3229 (.pointer (.named 302)) (.node (.node (.node Tree.nil 3232 (.signature 11) Tree.nil) 3234 (.string)
  (.node Tree.nil 3237 (.signature 11) Tree.nil)) 3238 (.pointer (.named 302)) (.node (.node Tree.nil 3239 (.signature 11) Tree.nil) 3240
  (.signature 11) (.node Tree.nil 3241 (.string) Tree.nil))))))))
/-- Constant values of expressions. -/
def valueTable : Tree Const := (.node (.node (.node (.node (.node Tree.nil 2750 (.str s41) Tree.nil) 2818 (.other) (.node Tree.nil 2820 (.str s42)
  Tree.nil)) 2825 (.other) (.node (.node Tree.nil 2827 (.str s43) Tree.nil) 2832 (.other) (.node Tree.nil 2840 (.str s44) Tree.nil))) 2863 (.str
  s45) (.node (.node (.node Tree.nil 2894 (.str s45) Tree.nil) 2918 (.str s46) (.node Tree.nil 2919 (.other) Tree.nil)) 2935 (.other) (.node (.node
  Tree.nil 2949 (.other) Tree.nil) 2958 (.str s46) (.node Tree.nil 2971 (.str s45) Tree.nil)))) 3004 (.str s47) (.node (.node (.node (.node Tree.nil
  3009 (.str s48) Tree.nil) 3066 (.str s49) (.node Tree.nil 3089 (.other) Tree.nil)) 3091 (.str s49) (.node (.node Tree.nil 3094 (.other) Tree.nil)
  3096 (.str s45) (.node Tree.nil 3099 (.other) Tree.nil))) 3104 (.other) (.node (.node (.node Tree.nil 3106 (.str s50) Tree.nil) 3109 (.other)
  (.node Tree.nil 3111 (.str s51) Tree.nil)) 3116 (.str s51) (.node (.node Tree.nil 3119 (.other) Tree.nil) 3124 (.other) (.node Tree.nil 3126 (.str
  s50) Tree.nil)))))
/-- `typeutil.Callee` of call expressions. -/
def calleeTable : Tree Nat := (.node (.node (.node (.node Tree.nil 2920 (284) Tree.nil) 2936 (284) Tree.nil) 2953 (293) (.node (.node Tree.nil 2959
  (285) Tree.nil) 2977 (285) Tree.nil)) 2992 (285) (.node (.node (.node Tree.nil 3012 (285) Tree.nil) 3055 (331) Tree.nil) 3067 (285) (.node (.node
  Tree.nil 3133 (285) Tree.nil) 3241 (304) Tree.nil)))
/-- `Info.Uses`. -/
def usesTable : Tree Nat := (.node (.node (.node (.node (.node (.node (.node (.node Tree.nil 2730 (16) Tree.nil) 2732 (0) Tree.nil) 2736 (19) (.node
  Tree.nil 2740 (311) Tree.nil)) 2742 (302) (.node (.node Tree.nil 2743 (310) Tree.nil) 2749 (302) (.node Tree.nil 2758 (16) Tree.nil))) 2761 (19)
  (.node (.node (.node Tree.nil 2765 (302) Tree.nil) 2766 (312) (.node Tree.nil 2774 (16) Tree.nil)) 2777 (19) (.node (.node Tree.nil 2781 (302)
  Tree.nil) 2782 (313) (.node Tree.nil 2791 (16) Tree.nil)))) 2794 (19) (.node (.node (.node (.node Tree.nil 2799 (315) Tree.nil) 2801 (302) (.node
  Tree.nil 2802 (314) Tree.nil)) 2811 (16) (.node (.node Tree.nil 2814 (19) Tree.nil) 2818 (21) (.node Tree.nil 2819 (302) Tree.nil))) 2825 (21)
  (.node (.node (.node Tree.nil 2826 (302) Tree.nil) 2832 (21) (.node Tree.nil 2833 (302) Tree.nil)) 2834 (317) (.node (.node Tree.nil 2839 (302)
  Tree.nil) 2851 (16) (.node Tree.nil 2853 (0) Tree.nil))))) 2857 (19) (.node (.node (.node (.node (.node (.node Tree.nil 2862 (302) Tree.nil) 2867
  (319) Tree.nil) 2869 (320) (.node Tree.nil 2870 (105) Tree.nil)) 2872 (318) (.node (.node Tree.nil 2876 (320) Tree.nil) 2882 (16) (.node Tree.nil
  2884 (0) Tree.nil))) 2888 (19) (.node (.node (.node Tree.nil 2893 (302) Tree.nil) 2898 (322) (.node Tree.nil 2900 (323) Tree.nil)) 2901 (105)
  (.node (.node Tree.nil 2903 (321) Tree.nil) 2907 (323) (.node Tree.nil 2913 (19) Tree.nil)))) 2917 (284) (.node (.node (.node (.node Tree.nil 2919
  (22) Tree.nil) 2926 (16) (.node Tree.nil 2929 (19) Tree.nil)) 2933 (284) (.node (.node Tree.nil 2934 (324) Tree.nil) 2935 (22) (.node Tree.nil
  2942 (16) Tree.nil))) 2945 (19) (.node (.node (.node Tree.nil 2949 (22) Tree.nil) 2951 (293) (.node Tree.nil 2952 (325) Tree.nil)) 2957 (285)
  (.node (.node Tree.nil 2965 (19) Tree.nil) 2970 (16) (.node Tree.nil 2975 (285) Tree.nil)))))) 2976 (326) (.node (.node (.node (.node (.node
  (.node (.node Tree.nil 2983 (16) Tree.nil) 2986 (19) Tree.nil) 2990 (285) (.node Tree.nil 2991 (327) Tree.nil)) 2998 (19) (.node (.node Tree.nil
  3003 (16) Tree.nil) 3008 (285) (.node Tree.nil 3010 (328) Tree.nil))) 3018 (16) (.node (.node (.node Tree.nil 3021 (19) Tree.nil) 3026 (19) (.node
  Tree.nil 3030 (302) Tree.nil)) 3031 (329) (.node (.node Tree.nil 3043 (16) Tree.nil) 3046 (19) (.node Tree.nil 3051 (285) Tree.nil)))) 3053 (331)
  (.node (.node (.node (.node Tree.nil 3054 (330) Tree.nil) 3061 (19) (.node Tree.nil 3065 (285) Tree.nil)) 3073 (1) (.node (.node Tree.nil 3076
  (16) Tree.nil) 3080 (19) (.node Tree.nil 3085 (16) Tree.nil))) 3089 (21) (.node (.node (.node Tree.nil 3090 (334) Tree.nil) 3094 (21) (.node
  Tree.nil 3095 (334) Tree.nil)) 3099 (21) (.node (.node Tree.nil 3100 (334) Tree.nil) 3101 (333) (.node Tree.nil 3104 (21) Tree.nil))))) 3105 (334)
  (.node (.node (.node (.node (.node (.node Tree.nil 3109 (21) Tree.nil) 3115 (335) Tree.nil) 3116 (336) (.node Tree.nil 3119 (21) Tree.nil)) 3120
  (334) (.node (.node Tree.nil 3121 (335) Tree.nil) 3124 (21) (.node Tree.nil 3125 (335) Tree.nil))) 3131 (285) (.node (.node (.node Tree.nil 3132
  (334) Tree.nil) 3140 (16) (.node Tree.nil 3143 (302) Tree.nil)) 3155 (16) (.node (.node Tree.nil 3162 (302) Tree.nil) 3168 (16) (.node Tree.nil
  3172 (337) Tree.nil)))) 3173 (105) (.node (.node (.node (.node Tree.nil 3179 (302) Tree.nil) 3185 (16) (.node Tree.nil 3189 (338) Tree.nil)) 3190
  (105) (.node (.node Tree.nil 3196 (302) Tree.nil) 3202 (16) (.node Tree.nil 3203 (16) Tree.nil))) 3208 (23) (.node (.node (.node Tree.nil 3213
  (302) Tree.nil) 3219 (19) (.node Tree.nil 3223 (23) Tree.nil)) 3228 (302) (.node (.node Tree.nil 3234 (16) Tree.nil) 3238 (341) (.node Tree.nil
  3239 (304) Tree.nil)))))))
/-- `Info.Selections`. -/
def selectionTable : Tree (GoType × Nat) := (.node (.node (.node Tree.nil 2871 ((.pointer (.named 302), 105)) Tree.nil) 2902 ((.pointer (.named
  302), 105)) Tree.nil) 3174 ((.pointer (.named 302), 105)) (.node (.node Tree.nil 3191 ((.pointer (.named 302), 105)) Tree.nil) 3240 ((.pointer
  (.named 302), 304)) Tree.nil))
/-- Identifiers that are names of imported packages. -/
def pkgNameTable : Tree GoString := Tree.nil
/-- Method sets. -/
def methodSetTable : Tree (List (GoString × Nat)) := (.node (.node (.node Tree.nil 27 ([(s40, 1386)]) Tree.nil) 95 ([(s40, 20)]) Tree.nil) 147
  ([(s0, 1398)]) (.node (.node Tree.nil 1505 ([(s0, 308)]) Tree.nil) 1511 ([(s39, 306), (s34, 303), (s37, 305), (s40, 307), (s36, 304)]) Tree.nil))
/-- Types implementing `error`. -/
def implErrorTable : Tree Unit := (.node (.node Tree.nil 27 (()) Tree.nil) 95 (()) (.node Tree.nil 1511 (()) Tree.nil))
/-- Types implementing `error` with a code. -/
def implCodeTable : Tree Unit := (.node Tree.nil 1511 (()) Tree.nil)
/-- Types implementing `error` with a cause. -/
def implCauseTable : Tree Unit := (.node Tree.nil 1511 (()) Tree.nil)
/-- Signatures: types of parameters, variadic, number of results. -/
def sigTable : Tree (List GoType × Bool × Nat) := (.node (.node (.node (.node Tree.nil 6 (([], false, 1)) Tree.nil) 11 (([], false, 1)) Tree.nil) 22
  (([.string], false, 1)) (.node Tree.nil 23 (([], false, 1)) Tree.nil)) 26 (([.string, .other 10], false, 1)) (.node (.node Tree.nil 27 (([.string,
  .string], false, 1)) Tree.nil) 30 (([.other 8, .string, .string], false, 1)) (.node Tree.nil 32 (([.string], false, 1)) Tree.nil)))
/-- Tuples of results. -/
def tupleTable : Tree (List GoType) := Tree.nil
/-- Fields of structs. -/
def structTable : Tree (List (GoString × GoType)) := (.node Tree.nil 1 ([(s15, .string)]) Tree.nil)
/-- Underlying types of named types. -/
def underlyingTable : Tree GoType := (.node (.node Tree.nil 19 (.interface 5) Tree.nil) 301 (.interface 29) (.node Tree.nil 302 (.struct 1) Tree.nil))
/-- Which types implement which interfaces. -/
def implTable : Tree (Tree Unit) := (.node (.node Tree.nil 5 ((.node (.node Tree.nil 27 (()) Tree.nil) 95 (()) (.node Tree.nil 1511 (()) Tree.nil)))
  Tree.nil) 29 ((.node (.node Tree.nil 147 (()) Tree.nil) 1505 (()) Tree.nil)) Tree.nil)
/-- Comments at return statements (`ast.NewCommentMap`). -/
def commentTable : Tree (List (List GoString)) := (.node (.node (.node (.node Tree.nil 2769 ([[s52]]) Tree.nil) 2785 ([[s53], [s54]]) Tree.nil) 2805
  ([[s55]]) (.node (.node Tree.nil 2921 ([[s56]]) Tree.nil) 2937 ([[s57]]) Tree.nil)) 2978 ([[s58]]) (.node (.node (.node Tree.nil 2993 ([[s59],
  [s60]]) Tree.nil) 3013 ([[s58]]) Tree.nil) 3034 ([[s62]]) (.node (.node Tree.nil 3038 ([[s61]]) Tree.nil) 3068 ([[s63]]) Tree.nil)))
/-- Function declarations. -/
def declTable : Tree DeclInfo := (.node (.node (.node (.node (.node Tree.nil 0 (⟨s0, true, none, some (CommentText.text [s64, s65, s66, s65, s67,
  s68]), 2755, 284, []⟩) Tree.nil) 1 (⟨s3, true, none, some (CommentText.text [s64, s65, s66, s65, s69]), 2771, 285, []⟩) Tree.nil) 2 (⟨s4, true,
  none, some (CommentText.text [s70, s71, s65, s72]), 2787, 286, []⟩) (.node (.node Tree.nil 3 (⟨s5, true, none, some (CommentText.text [s73, s65,
  s66, s65, s74]), 2807, 287, []⟩) Tree.nil) 4 (⟨s9, true, none, some (CommentText.text [s75, s65, s66, s65, s76, s77, s78]), 2848, 288, []⟩)
  Tree.nil)) 5 (⟨s13, true, none, some (CommentText.text [s66, s65, s69, s79]), 2879, 289, []⟩) (.node (.node (.node Tree.nil 6 (⟨s16, true, none,
  some (CommentText.text [s66, s65, s79]), 2910, 290, []⟩) Tree.nil) 7 (⟨s17, true, none, some (CommentText.text [s66, s65, s80, s81]), 2923, 291,
  []⟩) Tree.nil) 8 (⟨s19, true, none, some (CommentText.text [s66, s65, s82, s81]), 2939, 292, []⟩) (.node (.node Tree.nil 9 (⟨s20, true, none, some
  (CommentText.text [s66, s65, s69, s83]), 2962, 293, []⟩) Tree.nil) 10 (⟨s21, true, none, some (CommentText.text [s72]), 2980, 294, []⟩)
  Tree.nil))) 11 (⟨s23, true, none, some (CommentText.text [s72]), 2995, 295, []⟩) (.node (.node (.node (.node Tree.nil 12 (⟨s24, true, none, some
  (CommentText.text [s72]), 3015, 296, []⟩) Tree.nil) 13 (⟨s26, true, none, some (CommentText.text [s66, s65, s69]), 3040, 297, []⟩) Tree.nil) 15
  (⟨s27, true, none, some (CommentText.text [s66, s65, s69]), 3058, 298, []⟩) (.node (.node Tree.nil 16 (⟨s29, true, none, some (CommentText.text
  [s72]), 3070, 299, []⟩) Tree.nil) 17 (⟨s30, true, none, some (CommentText.text [s66, s65, s84, s85, s86]), 3136, 300, []⟩) Tree.nil)) 18 (⟨s34,
  true, some 3163, none, 3177, 303, [⟨3161, s35, (some 49)⟩]⟩) (.node (.node (.node Tree.nil 19 (⟨s36, true, some 3180, none, 3194, 304, [⟨3178,
  s35, (some 50)⟩]⟩) Tree.nil) 20 (⟨s37, true, some 3197, none, 3211, 305, [⟨3195, s35, (some 51)⟩]⟩) Tree.nil) 21 (⟨s39, true, some 3214, none,
  3226, 306, [⟨3212, s35, (some 52)⟩]⟩) (.node Tree.nil 22 (⟨s40, true, some 3229, none, 3244, 307, [⟨3227, s35, (some 53)⟩]⟩) Tree.nil))))
/-- Named interfaces. -/
def interfaceTable : Tree Unit := (.node (.node Tree.nil 19 (()) Tree.nil) 301 (()) Tree.nil)
/-- Methods of named types. -/
def methodNameTable : Tree (List GoString) := (.node Tree.nil 302 ([s34, s36, s37, s39, s40]) Tree.nil)
/-- Objects of interface methods. -/
def methodObjTable : Tree Nat := (.node Tree.nil 3138 (308) Tree.nil)
/-- Syntax and types of the package, and the facts exported by the packages it imports. -/
def env : Env where
  funcs := [f0, f1, f2, f3, f4, f5, f6, f7, f8, f9, f10, f11, f12, f13, f14, f15, f16, f17, f18, f19, f20, f21, f22]
  objects := objects
  typeOf := fun n => (typeTable.find n).getD (.other 0)
  value := valueTable.find
  callee := calleeTable.find
  uses := usesTable.find
  selection := selectionTable.find
  pkgName := pkgNameTable.find
  funcObj := fun f => ((declTable.find f).map (·.obj)).getD 0
  implError := fun t => has implErrorTable t
  implCode := fun t => has implCodeTable t
  sigResults := fun n => ((sigTable.find n).map (·.2.2)).getD 0
  methodSet := fun t name => ((typeKey t).bind methodSetTable.find).bind fun l => lookup name l
  functions := fun _ => none
  methods := fun _ => []
  comments := fun n => ((commentTable.find n).getD []).map CommentText.text
  isPrint := fun r => 32 ≤ r && r < 127
  facts := noFacts
/-- The package. -/
def package : Package where
  env := env
  decls := ⟨fun f => ((declTable.find f).map (·.name)).getD [], fun f => ((declTable.find f).map (·.exported)).getD false,
    fun f => (declTable.find f).bind (·.recv), fun f => (declTable.find f).bind (·.doc), fun t => has implCauseTable t,
    fun f => ((declTable.find f).map (·.pos)).getD 0⟩
  types := ⟨fun f => (((declTable.find f).bind (·.recv)).bind typeTable.find).getD (.other 0),
    fun f => ((declTable.find f).map (·.recvNames)).getD [], fun o => (interfaceTable.find o).isSome,
    fun o => (methodNameTable.find o).getD []⟩
  funcs := [0, 1, 2, 3, 4, 5, 6, 7, 8, 9, 10, 11, 12, 13, 15, 16, 17, 18, 19, 20, 21, 22]
  specs := [⟨3152, .named 301, none⟩, ⟨3160, .named 302, some [[s15]]⟩]
  ifaces := [⟨s87, 301, .interface 29, [.method ⟨3148, ⟨3138, s0, (some 46)⟩, ⟨[⟨[⟨3139, s2, (some 47)⟩], 3140⟩], (some [⟨[], 3144⟩]), 6198⟩, some
  (CommentText.text [s66, s65, s69])⟩]⟩]
  methodObj := fun n => (methodObjTable.find n).getD 0
  conv := ⟨fun o => (underlyingTable.find o).getD (.other 0), fun n => ((sigTable.find n).map (·.1)).getD [],
    fun n => ((sigTable.find n).map (·.2.1)).getD false, fun n => (tupleTable.find n).getD [], fun n => (structTable.find n).getD [],
    fun t n => ((implTable.find n).map fun tr => has tr t).getD false⟩
  top := [
    .func 0,
    .func 1,
    .func 2,
    .func 3,
    .func 4,
    .func 5,
    .func 6,
    .func 7,
    .func 8,
    .func 9,
    .func 10,
    .func 11,
    .func 12,
    .func 13,
    .func 15,
    .func 16,
    .func 17,
    .node (.other 3152 [.other 3151 [.ident ⟨3137, s87, (some 45)⟩, .other 3150 [.other 3149 [.other 3148 [.ident ⟨3138, s0, (some 46)⟩, .other 3147
  [.other 3142 [.other 3141 [.ident ⟨3139, s2, (some 47)⟩, .ident ⟨3140, s88, none⟩]], .other 3146 [.other 3145 [.other 3144 [.ident ⟨3143, s40,
  (some 3)⟩]]]]]]]]]),
    .node (.other 3160 [.other 3159 [.ident ⟨3153, s40, (some 3)⟩, .other 3158 [.other 3157 [.other 3156 [.ident ⟨3154, s15, (some 48)⟩, .ident
  ⟨3155, s88, none⟩]]]]]),
    .func 18,
    .func 19,
    .func 20,
    .func 21,
    .func 22]
/-- The run, in one order. -/
def result : Except Stop Outcome := runVerify package Check.source true
/-- What is expected.  The comments in the package say (with facts as `object: fact`):
```
error_constructor.go:9: NewError: ErrorConstructor: {CodeParamPosition:0}
error_constructor.go:9: NewError: ErrorCodes: unknown-error
error_constructor.go:21: NewError2: ErrorConstructor: {CodeParamPosition:0}
error_constructor.go:21: NewError2: ErrorCodes:
error_constructor.go:29: MissingParam: ErrorCodes:
error_constructor.go:30: require an error code parameter declaration to use "code" as an error code
error_constructor.go:38: WrongParam: ErrorConstructor: {CodeParamPosition:1}
error_constructor.go:38: WrongParam: ErrorCodes:
error_constructor.go:43: require an error code parameter declaration to use "code1" as an error code
error_constructor.go:53: MismatchedCodesAndParams: ErrorConstructor: {CodeParamPosition:0}
error_constructor.go:53: MismatchedCodesAndParams: ErrorCodes: hello-error unused-error
error_constructor.go:53: function "MismatchedCodesAndParams" has a mismatch of declared and actual error codes: missing codes: \[missing-1-error missing-2-error] unused codes: \[unused-error]
error_constructor.go:64: require an error code parameter declaration to use "codeMissing" as an error code
error_constructor.go:74: CorrectFieldAssign: ErrorConstructor: {CodeParamPosition:0}
error_constructor.go:74: CorrectFieldAssign: ErrorCodes: some-error
error_constructor.go:85: InvalidFieldAssign: ErrorCodes: some-error
error_constructor.go:88: require an error code parameter declaration to use "code" as an error code
error_constructor.go:97: CallConstructor: ErrorCodes: param-error unknown-error
error_constructor.go:105: CallConstructorFromConstructor: ErrorConstructor: {CodeParamPosition:0}
error_constructor.go:105: CallConstructorFromConstructor: ErrorCodes: unknown-error
error_constructor.go:113: RecursiveConstructor: ErrorConstructor: {CodeParamPosition:0}
error_constructor.go:113: RecursiveConstructor: ErrorCodes: param-error
error_constructor.go:121: InvalidCallConstructor: ErrorCodes:
error_constructor.go:123: error code has to be constant value or error code parameter
error_constructor.go:127: InvalidCallConstructor2: ErrorCodes:
error_constructor.go:128: require an error code parameter declaration to use "someCode" as an error code
error_constructor.go:132: InvalidCallConstructor3: ErrorCodes:
error_constructor.go:134: error code has to be constant value or error code parameter
error_constructor.go:140: InvalidUseOfCodeParam: ErrorConstructor: {CodeParamPosition:0}
error_constructor.go:140: InvalidUseOfCodeParam: ErrorCodes:
error_constructor.go:142: error code has to be constant value or error code parameter
error_constructor.go:149: InvalidUseOfCodeParam2: ErrorConstructor: {CodeParamPosition:0}
error_constructor.go:149: InvalidUseOfCodeParam2: ErrorCodes:
error_constructor.go:150: unsupported use of error constructor "NewError2"
error_constructor.go:155: EmptyStringConstruct: ErrorCodes:
error_constructor.go:164: AssignToParam: ErrorConstructor: {CodeParamPosition:2}
error_constructor.go:164: AssignToParam: ErrorCodes: other-error some-error
error_constructor.go:172: error code parameter may not be assigned an other parameter, receiver or global variable
error_constructor.go:174: error code has invalid format: should match (.*)
error_constructor.go:181: error code has invalid format: should match (.*)
error_constructor.go:190: declaration of error constructors in interfaces is currently not supported
error_constructor.go:193: Error: ErrorType{Field:{Name:"TheCode", Position:0}, Codes:}
``` -/
def expected : Check.Expected where
  tags := []
  ifaces := [{ at_ := 3148, msg := Serum.IfaceMsg.constructor }]
  signatures := []
  claims := []
  bodies := [(2, { at_ := 2782, msg := Serum.Msg.paramNotDeclared b!"code" }),
    (3, { at_ := 2802, msg := Serum.Msg.paramNotDeclared b!"code1" }),
    (4, { at_ := 2834, msg := Serum.Msg.paramNotDeclared b!"codeMissing" }),
    (6, { at_ := 2903, msg := Serum.Msg.paramNotDeclared b!"code" }),
    (10, { at_ := 2976, msg := Serum.Msg.notConstant }),
    (11, { at_ := 2991, msg := Serum.Msg.paramNotDeclared b!"someCode" }),
    (12, { at_ := 3011, msg := Serum.Msg.notConstant }),
    (14, { at_ := 3031, msg := Serum.Msg.notConstant }),
    (15, { at_ := 3051, msg := Serum.Msg.constructorAsValue 285 }),
    (17, { at_ := 3101, msg := Serum.Msg.paramOutOfScope }),
    (17, { at_ := 3106, msg := Serum.Msg.badConstant (Serum.ConstError.format) }),
    (17, { at_ := 3126, msg := Serum.Msg.badConstant (Serum.ConstError.format) })]
  mismatches := [(4, b!"missing codes: [missing-1-error missing-2-error] unused codes: [unused-error]")]
  conversions := []
  codes := [(284, [b!"unknown-error"]),
    (285, []),
    (286, []),
    (287, []),
    (288, [b!"hello-error", b!"unused-error"]),
    (289, [b!"some-error"]),
    (290, [b!"some-error"]),
    (291, [b!"param-error", b!"unknown-error"]),
    (292, [b!"unknown-error"]),
    (293, [b!"param-error"]),
    (294, []),
    (295, []),
    (296, []),
    (297, []),
    (298, []),
    (299, []),
    (300, [b!"some-error", b!"other-error"])]
  ctors := [(284, 0),
    (285, 0),
    (287, 1),
    (288, 0),
    (289, 0),
    (292, 0),
    (293, 0),
    (297, 0),
    (298, 0),
    (300, 2)]
  errorTypes := [(302, { codes := [], field := some { name := b!"TheCode", position := 0 } })]
  interfaces := []
  objects := 1385

/-- What functions call, and which literals they visit. -/
def graph : Check.Graph :=
  [([], []), ([], []), ([], []), ([], []), ([], []), ([], []), ([], []), ([0], []), ([0], []), ([9, 1], []), ([1], []), ([1], []), ([1], []),
  ([14], []), ([], []), ([1], []), ([1], []), ([1], []), ([], []), ([], []), ([], []), ([], []), ([19], [])]

theorem checked : Check.run package true expected graph = true := by decide +kernel

theorem imports : Check.Tables package.env.facts := tables_noFacts

theorem exported : Check.Tables (Check.factsOf result) := Check.tables checked imports

/-- The facts known before a run: those exported by some run over the imported packages. -/
def Imported (F : Facts) : Prop :=
  F = noFacts

/-- The facts known after a run. -/
def Exports (F : Facts) : Prop := Check.Exports package Imported true F

theorem imports_same (F : Facts) (h : Imported F) : Props.Run.SameFacts package.env.facts F := by
  obtain rfl := h
  exact (.refl _)

theorem exports_same {F : Facts} (h : Exports F) : Props.Run.SameFacts (Check.factsOf result) F :=
  Check.exports_same checked imports imports_same h

/-- **C54**: every run over the package has the expected result. -/
theorem always : Check.Always package Imported true expected :=
  Check.always checked imports imports_same

/-- For the nodes with diagnostics: file, line, and type of node. -/
def nodes : Tree (GoString × Nat × GoString) :=
  (.node (.node (.node (.node Tree.nil 2782 ((b!"error_constructor.go", 30, b!"Ident")) Tree.nil) 2802 ((b!"error_constructor.go", 43, b!"Ident")) (.node Tree.nil 2834 ((b!"error_constructor.go", 64, b!"Ident")) Tree.nil)) 2848 ((b!"error_constructor.go", 53, b!"FuncDecl")) (.node (.node Tree.nil 2903 ((b!"error_constructor.go", 88, b!"Ident")) Tree.nil) 2976 ((b!"error_constructor.go", 123, b!"Ident")) (.node Tree.nil 2991 ((b!"error_constructor.go", 128, b!"Ident")) Tree.nil))) 3011 ((b!"error_constructor.go", 134, b!"BinaryExpr")) (.node (.node (.node Tree.nil 3031 ((b!"error_constructor.go", 142, b!"Ident")) Tree.nil) 3051 ((b!"error_constructor.go", 150, b!"Ident")) (.node Tree.nil 3101 ((b!"error_constructor.go", 172, b!"Ident")) Tree.nil)) 3106 ((b!"error_constructor.go", 174, b!"BasicLit")) (.node (.node Tree.nil 3126 ((b!"error_constructor.go", 181, b!"BasicLit")) Tree.nil) 3148 ((b!"error_constructor.go", 190, b!"Field")) Tree.nil)))

/-- The names of the objects named in diagnostics other than by identifiers. -/
def objectNames : Tree GoString :=
  (.node Tree.nil 285 (b!"NewError2") Tree.nil)

def names : Names where
  object := fun o => (objectNames.find o).getD []
  kind := fun n => ((nodes.find n).map fun p => p.2.2).getD []

def place (n : NodeId) : GoString × Nat := ((nodes.find n).map fun p => (p.1, p.2.1)).getD ([], 0)

/-- What is printed: file, line and text. -/
def lines : List Check.Line := [(b!"error_constructor.go", 190, b!"declaration of error constructors in interfaces is currently not supported"),
    (b!"error_constructor.go", 30, b!"require an error code parameter declaration to use \"code\" as an error code"),
    (b!"error_constructor.go", 43, b!"require an error code parameter declaration to use \"code1\" as an error code"),
    (b!"error_constructor.go", 64, b!"require an error code parameter declaration to use \"codeMissing\" as an error code"),
    (b!"error_constructor.go", 88, b!"require an error code parameter declaration to use \"code\" as an error code"),
    (b!"error_constructor.go", 123, b!"error code has to be constant value or error code parameter"),
    (b!"error_constructor.go", 128, b!"require an error code parameter declaration to use \"someCode\" as an error code"),
    (b!"error_constructor.go", 134, b!"error code has to be constant value or error code parameter"),
    (b!"error_constructor.go", 142, b!"error code has to be constant value or error code parameter"),
    (b!"error_constructor.go", 150, b!"unsupported use of error constructor \"NewError2\""),
    (b!"error_constructor.go", 172, b!"error code parameter may not be assigned an other parameter, receiver or global variable"),
    (b!"error_constructor.go", 174, b!"error code has invalid format: should match [a-zA-Z][a-zA-Z0-9\\-]*[a-zA-Z0-9]"),
    (b!"error_constructor.go", 181, b!"error code has invalid format: should match [a-zA-Z][a-zA-Z0-9\\-]*[a-zA-Z0-9]"),
    (b!"error_constructor.go", 53, b!"function \"MismatchedCodesAndParams\" has a mismatch of declared and actual error codes: missing codes: [missing-1-error missing-2-error] unused codes: [unused-error]")]

/-- **C54**: for every run over the package, these lines are printed. -/
theorem prints : Check.Prints package Imported true names place lines :=
  Check.prints always (by decide +kernel)

end Serum.Testdata.errorConstructor
