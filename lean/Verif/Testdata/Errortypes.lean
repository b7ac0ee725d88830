import Verif.Testdata.Support

/-!
# C54: the package analysis/testdata/src/errortypes

Generated by `scripts/conformance/testdata.py` from errortypes.go.  Numbers of syntax nodes, objects and types are arbitrary.  The tables hold
what `go/parser` and `go/types` say about the package.
-/

set_option maxRecDepth 100000
set_option linter.all false

namespace Serum.Testdata.errortypes
open Serum Serum.Testdata

def s0 : GoString := b!"AllErrors"
def s1 : GoString := b!"someVariable"
def s2 : GoString := b!"true"
def s3 : GoString := b!"field"
def s4 : GoString := b!"field3"
def s5 : GoString := b!"field2"
def s6 : GoString := b!"field1"
def s7 : GoString := b!"nil"
def s8 : GoString := b!"ValidStringError"
def s9 : GoString := b!"InvalidStringError"
def s10 : GoString := b!"Code"
def s11 : GoString := b!"Error"
def s12 : GoString := b!"constantError3Code"
def s13 : GoString := b!"e"
def s14 : GoString := b!"errorCode"
def s15 : GoString := b!"Some"
def s16 : GoString := b!"string"
def s17 : GoString := b!"flag1"
def s18 : GoString := b!"code"
def s19 : GoString := b!"flag2"
def s20 : GoString := b!"OtherMethod"
def s21 : GoString := b!"false"
def s22 : GoString := b!"err"
def s23 : GoString := b!"TheCode"
def s24 : GoString := b!"other"
def s25 : GoString := b!"code2"
def s26 : GoString := b!"code3"
def s27 : GoString := b!"field-1-error"
def s28 : GoString := b!"field-2-error"
def s29 : GoString := b!"some other"
def s30 : GoString := b!"values"
def s31 : GoString := b!"something"
def s32 : GoString := b!"field-3-error"
def s33 : GoString := b!"something else"
def s34 : GoString := b!"field-4-error"
def s35 : GoString := b!"field-5-error"
def s36 : GoString := b!"unrelated"
def s37 : GoString := b!"stuff"
def s38 : GoString := b!"field-6-error"
def s39 : GoString := b!""
def s40 : GoString := b!"badformat-"
def s41 : GoString := b!"one"
def s42 : GoString := b!"two"
def s43 : GoString := b!"three"
def s44 : GoString := b!"promoted-1-error"
def s45 : GoString := b!"promoted-2-error"
def s46 : GoString := b!"promoted-3-error"
def s47 : GoString := b!"x"
def s48 : GoString := b!"y"
def s49 : GoString := b!"combined-3-error"
def s50 : GoString := b!"some error text"
def s51 : GoString := b!"string-2-error"
def s52 : GoString := b!"some-error"
def s53 : GoString := b!"ConstantError"
def s54 : GoString := b!"some-2-error"
def s55 : GoString := b!"some-2"
def s56 : GoString := b!"-error"
def s57 : GoString := b!"ConstantError2"
def s58 : GoString := b!"some-3-error"
def s59 : GoString := b!"some-3"
def s60 : GoString := b!"ConstantError3"
def s61 : GoString := b!"some-4-error"
def s62 : GoString := b!"ConstantError4"
def s63 : GoString := b!"multiple-1-error"
def s64 : GoString := b!"multiple-2-error"
def s65 : GoString := b!"multiple-3-error"
def s66 : GoString := b!"MultipleConstantError"
def s67 : GoString := b!"value-1-error"
def s68 : GoString := b!"ValueTypeError"
def s69 : GoString := b!"value-2-error"
def s70 : GoString := b!"ValueTypeError2"
def s71 : GoString := b!"invalid error"
def s72 : GoString := b!"InvalidError"
def s73 : GoString := b!"InvalidError2"
def s74 : GoString := b!"InvalidError3"
def s75 : GoString := b!"FieldError"
def s76 : GoString := b!"FieldError2"
def s77 : GoString := b!"FieldError3"
def s78 : GoString := b!"PromotedFieldError"
def s79 : GoString := b!"PromotedFieldError2"
def s80 : GoString := b!"PromotedFieldError3"
def s81 : GoString := b!"InvalidPromotedFieldError"
def s82 : GoString := b!"combined-1-error"
def s83 : GoString := b!"combined-2-error"
def s84 : GoString := b!"CombinedError"
def s85 : GoString := b!"string-error"
def s86 : GoString := b!"replaced-1-error"
def s87 : GoString := b!"replaced-2-error"
def s88 : GoString := b!"ModifyingError1"
def s89 : GoString := b!"replaced-3-error"
def s90 : GoString := b!"empty-string-error"
def s91 : GoString := b!"named-return-error"
def s92 : GoString := b!"NamedReturnError"
def s93 : GoString := b!"NamedReturnError2"
def s94 : GoString := b!"NamedReturnError3"
def s95 : GoString := b!"-invalid-error"
def s96 : GoString := b!"NamedReturnError4"
def s97 : GoString := b!"ReturnLocalVarError"
def s98 : GoString := b!"other-error"
def s99 : GoString := b!"extra-error"
def s100 : GoString := b!"Promoteable"
def s101 : GoString := b!"_"
def s102 : GoString := b!"Other"
def s103 : GoString := b!"Promoteable2"
def s104 : GoString := b!"Promoteable3"
def s105 : GoString := b!"// AllErrors returns variations of all errors defined in this package."
def s106 : GoString := b!"//"
def s107 : GoString := b!"// Errors:"
def s108 : GoString := b!"//    - some-error       --"
def s109 : GoString := b!"//    - some-2-error     --"
def s110 : GoString := b!"//    - some-3-error     --"
def s111 : GoString := b!"//    - some-4-error     --"
def s112 : GoString := b!"//    - multiple-1-error --"
def s113 : GoString := b!"//    - multiple-2-error --"
def s114 : GoString := b!"//    - multiple-3-error --"
def s115 : GoString := b!"//    - value-1-error    --"
def s116 : GoString := b!"//    - value-2-error    --"
def s117 : GoString := b!"//    - field-1-error    --"
def s118 : GoString := b!"//    - field-2-error    --"
def s119 : GoString := b!"//    - field-3-error    --"
def s120 : GoString := b!"//    - field-4-error    --"
def s121 : GoString := b!"//    - field-5-error    --"
def s122 : GoString := b!"//    - field-6-error    --"
def s123 : GoString := b!"//    - promoted-1-error --"
def s124 : GoString := b!"//    - promoted-2-error --"
def s125 : GoString := b!"//    - promoted-3-error --"
def s126 : GoString := b!"//    - combined-1-error --"
def s127 : GoString := b!"//    - combined-2-error --"
def s128 : GoString := b!"//    - combined-3-error --"
def s129 : GoString := b!"//    - string-error     --"
def s130 : GoString := b!"// Two return statements should only emit 1 error message"
def s131 : GoString := b!"int"
def s132 : GoString := b!"bool"
def s133 : GoString := b!"EmptyStringError"
def s134 : GoString := b!"ReturnLocalVarError1"
def s135 : GoString := b!"ReturnLocalVarError2"
/-- errortypes.go:29: `func AllErrors` -/
def f0 : FuncDef := ⟨3536, some ⟨3298, s0, (some 0)⟩, ⟨[], (some [⟨[], 3300⟩]), 741⟩, some [.other 3308 [.other 3307 [.valueSpec 3306 [⟨3304, s1,
  (some 1)⟩] (some 3305) []]], .other 3532 [.other 3531 [.caseClause 3314 [.ident ⟨3309, s2, none⟩] [.ret 3313 [.unary 3312 true (.compositeLit 3311
  [])]], .caseClause 3320 [.ident ⟨3315, s2, none⟩] [.ret 3319 [.unary 3318 true (.compositeLit 3317 [])]], .caseClause 3326 [.ident ⟨3321, s2,
  none⟩] [.ret 3325 [.unary 3324 true (.compositeLit 3323 [])]], .caseClause 3332 [.ident ⟨3327, s2, none⟩] [.ret 3331 [.unary 3330 true
  (.compositeLit 3329 [])]], .caseClause 3338 [.ident ⟨3333, s2, none⟩] [.ret 3337 [.unary 3336 true (.compositeLit 3335 [])]], .caseClause 3343
  [.ident ⟨3339, s2, none⟩] [.ret 3342 [.compositeLit 3341 []]], .caseClause 3349 [.ident ⟨3344, s2, none⟩] [.ret 3348 [.unary 3347 true
  (.compositeLit 3346 [])]], .caseClause 3355 [.ident ⟨3350, s2, none⟩] [.ret 3354 [.unary 3353 true (.compositeLit 3352 [])]], .caseClause 3361
  [.ident ⟨3356, s2, none⟩] [.ret 3360 [.unary 3359 true (.compositeLit 3358 [])]], .caseClause 3367 [.ident ⟨3362, s2, none⟩] [.ret 3366 [.unary
  3365 true (.compositeLit 3364 [])]], .caseClause 3374 [.ident ⟨3368, s2, none⟩] [.ret 3373 [.unary 3372 true (.compositeLit 3371 [.basicLit
  3370])]], .caseClause 3383 [.ident ⟨3375, s2, none⟩] [.ret 3382 [.unary 3381 true (.compositeLit 3380 [.basicLit 3377, .basicLit 3378, .basicLit
  3379])]], .caseClause 3392 [.ident ⟨3384, s2, none⟩] [.ret 3391 [.unary 3390 true (.compositeLit 3389 [.basicLit 3386, .basicLit 3387, .basicLit
  3388])]], .caseClause 3399 [.ident ⟨3393, s2, none⟩] [.ret 3398 [.unary 3397 true (.compositeLit 3396 [.basicLit 3395])]], .caseClause 3408
  [.ident ⟨3400, s2, none⟩] [.ret 3407 [.unary 3406 true (.compositeLit 3405 [.keyValue 3404 (.ident ⟨3402, s3, none⟩) (.basicLit 3403)])]],
  .caseClause 3423 [.ident ⟨3409, s2, none⟩] [.ret 3422 [.unary 3421 true (.compositeLit 3420 [.keyValue 3413 (.ident ⟨3411, s4, none⟩) (.basicLit
  3412), .keyValue 3416 (.ident ⟨3414, s5, none⟩) (.basicLit 3415), .keyValue 3419 (.ident ⟨3417, s6, none⟩) (.basicLit 3418)])]], .caseClause 3430
  [.ident ⟨3424, s2, none⟩] [.ret 3429 [.unary 3428 true (.compositeLit 3427 [.ident ⟨3426, s1, (some 1)⟩])]], .caseClause 3436 [.ident ⟨3431, s2,
  none⟩] [.ret 3435 [.unary 3434 true (.compositeLit 3433 [])]], .caseClause 3445 [.ident ⟨3437, s2, none⟩] [.ret 3444 [.unary 3443 true
  (.compositeLit 3442 [.keyValue 3441 (.ident ⟨3439, s4, none⟩) (.basicLit 3440)])]], .caseClause 3452 [.ident ⟨3446, s2, none⟩] [.ret 3451 [.unary
  3450 true (.compositeLit 3449 [.basicLit 3448])]], .caseClause 3464 [.ident ⟨3453, s2, none⟩] [.ret 3463 [.unary 3462 true (.compositeLit 3461
  [.keyValue 3457 (.ident ⟨3455, s4, none⟩) (.basicLit 3456), .keyValue 3460 (.ident ⟨3458, s6, none⟩) (.basicLit 3459)])]], .caseClause 3471
  [.ident ⟨3465, s2, none⟩] [.ret 3470 [.unary 3469 true (.compositeLit 3468 [.basicLit 3467])]], .caseClause 3483 [.ident ⟨3472, s2, none⟩] [.ret
  3482 [.unary 3481 true (.compositeLit 3480 [.compositeLit 3477 [.basicLit 3475, .basicLit 3476], .basicLit 3478, .basicLit 3479])]], .caseClause
  3492 [.ident ⟨3484, s2, none⟩] [.ret 3491 [.unary 3490 true (.compositeLit 3489 [.keyValue 3488 (.ident ⟨3486, s3, none⟩) (.basicLit 3487)])]],
  .caseClause 3501 [.ident ⟨3493, s2, none⟩] [.ret 3500 [.unary 3499 true (.compositeLit 3498 [.ident ⟨3495, s7, none⟩, .basicLit 3496, .basicLit
  3497])]], .caseClause 3511 [.ident ⟨3502, s2, none⟩] [.ret 3510 [.unary 3509 true (.compositeLit 3508 [.compositeLit 3507 [.basicLit 3505,
  .basicLit 3506]])]], .caseClause 3518 [.ident ⟨3512, s2, none⟩] [.ret 3517 [.unary 3516 true (.compositeLit 3515 [.basicLit 3514])]], .caseClause
  3524 [.ident ⟨3519, s2, none⟩] [.ret 3523 [.call 3522 (.ident ⟨3520, s8, (some 21)⟩) [.basicLit 3521]]], .caseClause 3530 [.ident ⟨3525, s2,
  none⟩] [.ret 3529 [.call 3528 (.ident ⟨3526, s9, (some 22)⟩) [.basicLit 3527]]]]], .ret 3534 [.ident ⟨3533, s7, none⟩]], 747, 3564⟩
/-- errortypes.go:96: `func Code` -/
def f1 : FuncDef := ⟨3556, some ⟨3547, s10, none⟩, ⟨[], (some [⟨[], 3549⟩]), 3691⟩, some [.ret 3554 [.basicLit 3553]], 3699, 3722⟩
/-- errortypes.go:97: `func Error` -/
def f2 : FuncDef := ⟨3571, some ⟨3562, s11, none⟩, ⟨[], (some [⟨[], 3564⟩]), 3755⟩, some [.ret 3569 [.basicLit 3568]], 3762, 3788⟩
/-- errortypes.go:101: `func Code` -/
def f3 : FuncDef := ⟨3593, some ⟨3582, s10, none⟩, ⟨[], (some [⟨[], 3584⟩]), 3920⟩, some [.ret 3591 [.other 3590 [.basicLit 3588, .basicLit 3589]]],
  3928, 3958⟩
/-- errortypes.go:102: `func Error` -/
def f4 : FuncDef := ⟨3608, some ⟨3599, s11, none⟩, ⟨[], (some [⟨[], 3601⟩]), 3992⟩, some [.ret 3606 [.basicLit 3605]], 3999, 4026⟩
/-- errortypes.go:108: `func Code` -/
def f5 : FuncDef := ⟨3634, some ⟨3625, s10, none⟩, ⟨[], (some [⟨[], 3627⟩]), 4206⟩, some [.ret 3632 [.ident ⟨3631, s12, (some 27)⟩]], 4214, 4243⟩
/-- errortypes.go:109: `func Error` -/
def f6 : FuncDef := ⟨3649, some ⟨3640, s11, none⟩, ⟨[], (some [⟨[], 3642⟩]), 4277⟩, some [.ret 3647 [.basicLit 3646]], 4284, 4311⟩
/-- errortypes.go:113: `func Code` -/
def f7 : FuncDef := ⟨3668, some ⟨3659, s10, none⟩, ⟨[], (some [⟨[], 3661⟩]), 4441⟩, some [.ret 3666 [.basicLit 3665]], 4449, 4474⟩
/-- errortypes.go:114: `func Error` -/
def f8 : FuncDef := ⟨3682, some ⟨3673, s11, none⟩, ⟨[], (some [⟨[], 3675⟩]), 4506⟩, some [.ret 3680 [.basicLit 3679]], 4513, 4540⟩
/-- errortypes.go:118: `func Code` -/
def f9 : FuncDef := ⟨3713, some ⟨3693, s10, none⟩, ⟨[], (some [⟨[], 3695⟩]), 4731⟩, some [.other 3711 [.other 3710 [.caseClause 3702 [.ident ⟨3699,
  s2, none⟩] [.ret 3701 [.basicLit 3700]], .caseClause 3706 [.ident ⟨3703, s2, none⟩] [.ret 3705 [.basicLit 3704]], .caseClause 3709 [] [.ret 3708
  [.basicLit 3707]]]]], 4738, 4872⟩
/-- errortypes.go:128: `func Error` -/
def f10 : FuncDef := ⟨3728, some ⟨3719, s11, none⟩, ⟨[], (some [⟨[], 3721⟩]), 4913⟩, some [.ret 3726 [.basicLit 3725]], 4920, 4954⟩
/-- errortypes.go:132: `func Code` -/
def f11 : FuncDef := ⟨3747, some ⟨3738, s10, none⟩, ⟨[], (some [⟨[], 3740⟩]), 5086⟩, some [.ret 3745 [.basicLit 3744]], 5094, 5120⟩
/-- errortypes.go:133: `func Error` -/
def f12 : FuncDef := ⟨3761, some ⟨3752, s11, none⟩, ⟨[], (some [⟨[], 3754⟩]), 5153⟩, some [.ret 3759 [.basicLit 3758]], 5160, 5187⟩
/-- errortypes.go:137: `func Code` -/
def f13 : FuncDef := ⟨3780, some ⟨3771, s10, none⟩, ⟨[], (some [⟨[], 3773⟩]), 5322⟩, some [.ret 3778 [.basicLit 3777]], 5330, 5356⟩
/-- errortypes.go:138: `func Error` -/
def f14 : FuncDef := ⟨3794, some ⟨3785, s11, none⟩, ⟨[], (some [⟨[], 3787⟩]), 5390⟩, some [.ret 3792 [.basicLit 3791]], 5397, 5425⟩
/-- errortypes.go:142: `func Code` -/
def f15 : FuncDef := ⟨3814, some ⟨3805, s10, none⟩, ⟨[], (some [⟨[], 3807⟩]), 5572⟩, some [.ret 3812 [.basicLit 3811]], 5580, 5606⟩
/-- errortypes.go:143: `func Error` -/
def f16 : FuncDef := ⟨3829, some ⟨3820, s11, none⟩, ⟨[], (some [⟨[], 3822⟩]), 5695⟩, some [.ret 3827 [.basicLit 3826]], 5702, 5727⟩
/-- errortypes.go:147: `func Code` -/
def f17 : FuncDef := ⟨3859, some ⟨3844, s10, none⟩, ⟨[], (some [⟨[], 3846⟩]), 5900⟩, some [.ret 3857 [.other 3856 [.selector 3852 (.ident ⟨3850,
  s13, (some 40)⟩) ⟨3851, s6, none⟩, .selector 3855 (.ident ⟨3853, s13, (some 40)⟩) ⟨3854, s5, none⟩]]], 5908, 5938⟩
/-- errortypes.go:148: `func Error` -/
def f18 : FuncDef := ⟨3874, some ⟨3865, s11, none⟩, ⟨[], (some [⟨[], 3867⟩]), 6054⟩, some [.ret 3872 [.basicLit 3871]], 6061, 6087⟩
/-- errortypes.go:152: `func Error` -/
def f19 : FuncDef := ⟨3894, some ⟨3885, s11, none⟩, ⟨[], (some [⟨[], 3887⟩]), 6150⟩, some [.ret 3892 [.basicLit 3891]], 6157, 6183⟩
/-- errortypes.go:156: `func Code` -/
def f20 : FuncDef := ⟨3919, some ⟨3908, s10, none⟩, ⟨[], (some [⟨[], 3910⟩]), 6326⟩, some [.ret 3917 [.selector 3916 (.ident ⟨3914, s13, (some 44)⟩)
  ⟨3915, s3, none⟩]], 6334, 6352⟩
/-- errortypes.go:157: `func Error` -/
def f21 : FuncDef := ⟨3934, some ⟨3925, s11, none⟩, ⟨[], (some [⟨[], 3927⟩]), 6382⟩, some [.ret 3932 [.basicLit 3931]], 6389, 6412⟩
/-- errortypes.go:161: `func Code` -/
def f22 : FuncDef := ⟨3976, some ⟨3950, s10, none⟩, ⟨[], (some [⟨[], 3952⟩]), 6576⟩, some [.other 3974 [.other 3973 [.caseClause 3961 [.ident ⟨3956,
  s2, none⟩] [.ret 3960 [.selector 3959 (.ident ⟨3957, s13, (some 49)⟩) ⟨3958, s6, none⟩]], .caseClause 3967 [.ident ⟨3962, s2, none⟩] [.ret 3966
  [.selector 3965 (.ident ⟨3963, s13, (some 49)⟩) ⟨3964, s5, none⟩]], .caseClause 3972 [] [.ret 3971 [.selector 3970 (.ident ⟨3968, s13, (some 49)⟩)
  ⟨3969, s4, none⟩]]]]], 6583, 6901⟩
/-- errortypes.go:171: `func Error` -/
def f23 : FuncDef := ⟨3991, some ⟨3982, s11, none⟩, ⟨[], (some [⟨[], 3984⟩]), 6932⟩, some [.ret 3989 [.basicLit 3988]], 6939, 6963⟩
/-- errortypes.go:175: `func Code` -/
def f24 : FuncDef := ⟨4018, some ⟨4007, s10, none⟩, ⟨[], (some [⟨[], 4009⟩]), 7117⟩, some [.ret 4016 [.selector 4015 (.ident ⟨4013, s13, (some 54)⟩)
  ⟨4014, s5, none⟩]], 7125, 7144⟩
/-- errortypes.go:176: `func Error` -/
def f25 : FuncDef := ⟨4033, some ⟨4024, s11, none⟩, ⟨[], (some [⟨[], 4026⟩]), 7175⟩, some [.ret 4031 [.basicLit 4030]], 7182, 7206⟩
/-- errortypes.go:187: `func Code` -/
def f26 : FuncDef := ⟨4085, some ⟨4074, s10, none⟩, ⟨[], (some [⟨[], 4076⟩]), 7505⟩, some [.ret 4083 [.selector 4082 (.ident ⟨4080, s13, (some 65)⟩)
  ⟨4081, s3, none⟩]], 7513, 7531⟩
/-- errortypes.go:188: `func Error` -/
def f27 : FuncDef := ⟨4100, some ⟨4091, s11, none⟩, ⟨[], (some [⟨[], 4093⟩]), 7569⟩, some [.ret 4098 [.basicLit 4097]], 7576, 7607⟩
/-- errortypes.go:198: `func Code` -/
def f28 : FuncDef := ⟨4135, some ⟨4124, s10, none⟩, ⟨[], (some [⟨[], 4126⟩]), 7837⟩, some [.ret 4133 [.selector 4132 (.ident ⟨4130, s13, (some 70)⟩)
  ⟨4131, s3, none⟩]], 7845, 7863⟩
/-- errortypes.go:199: `func Error` -/
def f29 : FuncDef := ⟨4150, some ⟨4141, s11, none⟩, ⟨[], (some [⟨[], 4143⟩]), 7902⟩, some [.ret 4148 [.basicLit 4147]], 7909, 7941⟩
/-- errortypes.go:206: `func Code` -/
def f30 : FuncDef := ⟨4179, some ⟨4168, s10, none⟩, ⟨[], (some [⟨[], 4170⟩]), 8138⟩, some [.ret 4177 [.selector 4176 (.ident ⟨4174, s13, (some 74)⟩)
  ⟨4175, s14, none⟩]], 8146, 8168⟩
/-- errortypes.go:207: `func Error` -/
def f31 : FuncDef := ⟨4194, some ⟨4185, s11, none⟩, ⟨[], (some [⟨[], 4187⟩]), 8207⟩, some [.ret 4192 [.basicLit 4191]], 8214, 8246⟩
/-- errortypes.go:211: `func Code` -/
def f32 : FuncDef := ⟨4218, some ⟨4207, s10, none⟩, ⟨[], (some [⟨[], 4209⟩]), 8445⟩, some [.ret 4216 [.selector 4215 (.ident ⟨4213, s13, (some 76)⟩)
  ⟨4214, s15, none⟩]], 8453, 8470⟩
/-- errortypes.go:212: `func Error` -/
def f33 : FuncDef := ⟨4233, some ⟨4224, s11, none⟩, ⟨[], (some [⟨[], 4226⟩]), 8661⟩, some [.ret 4231 [.basicLit 4230]], 8668, 8706⟩
/-- errortypes.go:216: `func Code` -/
def f34 : FuncDef := ⟨4268, some ⟨4247, s10, none⟩, ⟨[], (some [⟨[], 4249⟩]), 8891⟩, some [.other 4264 [.other 4263 [.caseClause 4258 [.ident ⟨4253,
  s2, none⟩] [.ret 4257 [.selector 4256 (.ident ⟨4254, s13, (some 79)⟩) ⟨4255, s3, none⟩]], .caseClause 4262 [.ident ⟨4259, s2, none⟩] [.ret 4261
  [.basicLit 4260]]]], .ret 4266 [.basicLit 4265]], 8898, 9010⟩
/-- errortypes.go:225: `func Error` -/
def f35 : FuncDef := ⟨4283, some ⟨4274, s11, none⟩, ⟨[], (some [⟨[], 4276⟩]), 9043⟩, some [.ret 4281 [.basicLit 4280]], 9050, 9076⟩
/-- errortypes.go:229: `func Code` -/
def f36 : FuncDef := ⟨4301, some ⟨4292, s10, none⟩, ⟨[], (some [⟨[], 4294⟩]), 9211⟩, some [.ret 4299 [.basicLit 4298]], 9219, 9244⟩
/-- errortypes.go:230: `func Error` -/
def f37 : FuncDef := ⟨4315, some ⟨4306, s11, none⟩, ⟨[], (some [⟨[], 4308⟩]), 9279⟩, some [.ret 4313 [.basicLit 4312]], 9286, 9315⟩
/-- errortypes.go:234: `func Code` -/
def f38 : FuncDef := ⟨4335, some ⟨4324, s10, none⟩, ⟨[], (some [⟨[], 4326⟩]), 9477⟩, some [.ret 4333 [.call 4332 (.ident ⟨4330, s16, none⟩) [.ident
  ⟨4331, s13, (some 83)⟩]]], 9485, 9505⟩
/-- errortypes.go:235: `func Error` -/
def f39 : FuncDef := ⟨4349, some ⟨4340, s11, none⟩, ⟨[], (some [⟨[], 4342⟩]), 9625⟩, some [.ret 4347 [.basicLit 4346]], 9632, 9663⟩
/-- errortypes.go:242: `func Code` -/
def f40 : FuncDef := ⟨4404, some ⟨4367, s10, none⟩, ⟨[], (some [⟨[], 4369⟩]), 9898⟩, some [.other 4383 [.selector 4375 (.ident ⟨4373, s13, (some
  89)⟩) ⟨4374, s17, none⟩, .other 4382 [.assign 4381 [.selector 4379 (.ident ⟨4377, s13, (some 89)⟩) ⟨4378, s18, none⟩] [.basicLit 4380]]], .other
  4398 [.selector 4386 (.ident ⟨4384, s13, (some 89)⟩) ⟨4385, s19, none⟩, .other 4397 [.assign 4396 [.selector 4390 (.ident ⟨4388, s13, (some 89)⟩)
  ⟨4389, s18, none⟩] [.other 4395 [.selector 4393 (.ident ⟨4391, s13, (some 89)⟩) ⟨4392, s18, none⟩, .basicLit 4394]]]], .ret 4402 [.selector 4401
  (.ident ⟨4399, s13, (some 89)⟩) ⟨4400, s18, none⟩]], 9905, 10086⟩
/-- errortypes.go:252: `func Error` -/
def f41 : FuncDef := ⟨4445, some ⟨4410, s11, none⟩, ⟨[], (some [⟨[], 4412⟩]), 10122⟩, some [.other 4426 [.selector 4418 (.ident ⟨4416, s13, (some
  90)⟩) ⟨4417, s17, none⟩, .other 4425 [.assign 4424 [.selector 4422 (.ident ⟨4420, s13, (some 90)⟩) ⟨4421, s18, none⟩] [.basicLit 4423]]], .other
  4441 [.selector 4429 (.ident ⟨4427, s13, (some 90)⟩) ⟨4428, s19, none⟩, .other 4440 [.assign 4439 [.selector 4433 (.ident ⟨4431, s13, (some 90)⟩)
  ⟨4432, s18, none⟩] [.other 4438 [.selector 4436 (.ident ⟨4434, s13, (some 90)⟩) ⟨4435, s18, none⟩, .basicLit 4437]]]], .ret 4443 [.basicLit
  4442]], 10129, 10321⟩
/-- errortypes.go:262: `func OtherMethod` -/
def f42 : FuncDef := ⟨4486, some ⟨4451, s20, none⟩, ⟨[], (some [⟨[], 4453⟩]), 10363⟩, some [.other 4467 [.selector 4459 (.ident ⟨4457, s13, (some
  91)⟩) ⟨4458, s17, none⟩, .other 4466 [.assign 4465 [.selector 4463 (.ident ⟨4461, s13, (some 91)⟩) ⟨4462, s18, none⟩] [.basicLit 4464]]], .other
  4482 [.selector 4470 (.ident ⟨4468, s13, (some 91)⟩) ⟨4469, s19, none⟩, .other 4481 [.assign 4480 [.selector 4474 (.ident ⟨4472, s13, (some 91)⟩)
  ⟨4473, s18, none⟩] [.other 4479 [.selector 4477 (.ident ⟨4475, s13, (some 91)⟩) ⟨4476, s18, none⟩, .basicLit 4478]]]], .ret 4484 [.basicLit
  4483]], 10370, 10562⟩
/-- errortypes.go:274: `func Code` -/
def f43 : FuncDef := ⟨4514, some ⟨4497, s10, none⟩, ⟨[], (some [⟨[], 4499⟩]), 10706⟩, some [.other 4510 [.other 4505 [.ident ⟨4503, s13, (some 93)⟩,
  .ident ⟨4504, s7, none⟩], .other 4509 [.ret 4508 [.basicLit 4507]]], .ret 4512 [.basicLit 4511]], 10713, 10775⟩
/-- errortypes.go:280: `func Error` -/
def f44 : FuncDef := ⟨4528, some ⟨4519, s11, none⟩, ⟨[], (some [⟨[], 4521⟩]), 10809⟩, some [.ret 4526 [.basicLit 4525]], 10816, 10847⟩
/-- errortypes.go:284: `func Code` -/
def f45 : FuncDef := ⟨4557, some ⟨4538, s10, none⟩, ⟨[], (some [⟨[⟨4540, s18, (some 95)⟩], 4541⟩]), 10989⟩, some [.assign 4547 [.ident ⟨4545, s18,
  (some 95)⟩] [.basicLit 4546], .other 4554 [.ident ⟨4548, s21, none⟩, .other 4553 [.assign 4552 [.ident ⟨4550, s18, (some 95)⟩] [.basicLit 4551]]],
  .ret 4555 []], 11003, 11070⟩
/-- errortypes.go:291: `func Error` -/
def f46 : FuncDef := ⟨4574, some ⟨4562, s11, none⟩, ⟨[], (some [⟨[⟨4564, s22, (some 96)⟩], 4565⟩]), 11104⟩, some [.assign 4571 [.ident ⟨4569, s22,
  (some 96)⟩] [.basicLit 4570], .ret 4572 []], 11117, 11154⟩
/-- errortypes.go:300: `func Code` -/
def f47 : FuncDef := ⟨4602, some ⟨4588, s10, none⟩, ⟨[], (some [⟨[⟨4590, s18, (some 100)⟩], 4591⟩]), 11324⟩, some [.assign 4599 [.ident ⟨4595, s18,
  (some 100)⟩] [.selector 4598 (.ident ⟨4596, s13, (some 99)⟩) ⟨4597, s23, none⟩], .ret 4600 []], 11338, 11367⟩
/-- errortypes.go:304: `func Error` -/
def f48 : FuncDef := ⟨4619, some ⟨4607, s11, none⟩, ⟨[], (some [⟨[⟨4609, s22, (some 101)⟩], 4610⟩]), 11402⟩, some [.assign 4616 [.ident ⟨4614, s22,
  (some 101)⟩] [.basicLit 4615], .ret 4617 []], 11415, 11453⟩
/-- errortypes.go:313: `func Code` -/
def f49 : FuncDef := ⟨4657, some ⟨4633, s10, none⟩, ⟨[], (some [⟨[⟨4635, s18, (some 105)⟩], 4636⟩]), 11633⟩, some [.assign 4642 [.ident ⟨4640, s14,
  (some 106)⟩] [.basicLit 4641], .assign 4647 [.ident ⟨4643, s18, (some 105)⟩] [.selector 4646 (.ident ⟨4644, s13, (some 104)⟩) ⟨4645, s23, none⟩],
  .other 4654 [.ident ⟨4648, s21, none⟩, .other 4653 [.assign 4652 [.ident ⟨4650, s18, (some 105)⟩] [.ident ⟨4651, s14, (some 106)⟩]]], .ret 4655
  []], 11647, 11737⟩
/-- errortypes.go:321: `func Error` -/
def f50 : FuncDef := ⟨4674, some ⟨4662, s11, none⟩, ⟨[], (some [⟨[⟨4664, s22, (some 107)⟩], 4665⟩]), 11772⟩, some [.assign 4671 [.ident ⟨4669, s22,
  (some 107)⟩] [.basicLit 4670], .ret 4672 []], 11785, 11823⟩
/-- errortypes.go:331: `func Code` -/
def f51 : FuncDef := ⟨4710, some ⟨4688, s10, none⟩, ⟨[], (some [⟨[⟨4690, s18, (some 111)⟩], 4691⟩]), 12051⟩, some [.assign 4699 [.ident ⟨4695, s18,
  (some 111)⟩] [.selector 4698 (.ident ⟨4696, s13, (some 110)⟩) ⟨4697, s23, none⟩], .other 4707 [.ident ⟨4700, s21, none⟩, .other 4706 [.assign 4704
  [.ident ⟨4702, s18, (some 111)⟩] [.basicLit 4703], .ret 4705 []]], .ret 4708 []], 12065, 12203⟩
/-- errortypes.go:339: `func Error` -/
def f52 : FuncDef := ⟨4724, some ⟨4715, s11, none⟩, ⟨[], (some [⟨[], 4717⟩]), 12238⟩, some [.ret 4722 [.basicLit 4721]], 12245, 12275⟩
/-- errortypes.go:345: `func Code` -/
def f53 : FuncDef := ⟨4752, some ⟨4738, s10, none⟩, ⟨[], (some [⟨[], 4740⟩]), 12454⟩, some [.assign 4748 [.ident ⟨4744, s18, (some 115)⟩] [.selector
  4747 (.ident ⟨4745, s13, (some 114)⟩) ⟨4746, s23, none⟩], .ret 4750 [.ident ⟨4749, s18, (some 115)⟩]], 12461, 12496⟩
/-- errortypes.go:349: `func Error` -/
def f54 : FuncDef := ⟨4766, some ⟨4757, s11, none⟩, ⟨[], (some [⟨[], 4759⟩]), 12534⟩, some [.ret 4764 [.basicLit 4763]], 12541, 12573⟩
/-- errortypes.go:355: `func Code` -/
def f55 : FuncDef := ⟨4824, some ⟨4780, s10, none⟩, ⟨[], (some [⟨[], 4782⟩]), 12774⟩, some [.assign 4790 [.ident ⟨4786, s18, (some 119)⟩] [.selector
  4789 (.ident ⟨4787, s13, (some 118)⟩) ⟨4788, s23, none⟩], .assign 4793 [.ident ⟨4791, s24, (some 120)⟩] [.basicLit 4792], .other 4798 [.other 4797
  [.valueSpec 4796 [⟨4794, s25, (some 121)⟩] (some 4795) []]], .other 4822 [.ident ⟨4799, s21, none⟩, .other 4806 [.assign 4803 [.ident ⟨4801, s25,
  (some 121)⟩] [.ident ⟨4802, s18, (some 119)⟩], .ret 4805 [.ident ⟨4804, s25, (some 121)⟩]], .other 4821 [.assign 4809 [.ident ⟨4807, s26, (some
  122)⟩] [.basicLit 4808], .other 4818 [.other 4812 [.ident ⟨4810, s18, (some 119)⟩, .basicLit 4811], .other 4817 [.assign 4816 [.ident ⟨4814, s26,
  (some 122)⟩] [.ident ⟨4815, s24, (some 120)⟩]]], .ret 4820 [.ident ⟨4819, s26, (some 122)⟩]]]], 12781, 12989⟩
/-- errortypes.go:370: `func Error` -/
def f56 : FuncDef := ⟨4838, some ⟨4829, s11, none⟩, ⟨[], (some [⟨[], 4831⟩]), 13027⟩, some [.ret 4836 [.basicLit 4835]], 13034, 13066⟩
/-- The objects of go/ast, in the order of their numbers. -/
def objects : List ObjInfo := [
  ⟨.fun_, 729, (.funcDecl 0)⟩,
  ⟨.var, 1114, (.valueSpec [⟨3304, s1, (some 1)⟩] [])⟩,
  ⟨.typ, 3571, .typeSpec⟩,
  ⟨.typ, 3795, .typeSpec⟩,
  ⟨.typ, 4081, .typeSpec⟩,
  ⟨.typ, 4318, .typeSpec⟩,
  ⟨.typ, 4547, .typeSpec⟩,
  ⟨.typ, 4961, .typeSpec⟩,
  ⟨.typ, 5194, .typeSpec⟩,
  ⟨.typ, 5432, .typeSpec⟩,
  ⟨.typ, 5734, .typeSpec⟩,
  ⟨.typ, 6094, .typeSpec⟩,
  ⟨.typ, 6190, .typeSpec⟩,
  ⟨.typ, 6419, .typeSpec⟩,
  ⟨.typ, 6970, .typeSpec⟩,
  ⟨.typ, 7327, .typeSpec⟩,
  ⟨.typ, 7213, .typeSpec⟩,
  ⟨.typ, 7614, .typeSpec⟩,
  ⟨.typ, 7948, .typeSpec⟩,
  ⟨.typ, 8253, .typeSpec⟩,
  ⟨.typ, 8713, .typeSpec⟩,
  ⟨.typ, 9083, .typeSpec⟩,
  ⟨.typ, 9322, .typeSpec⟩,
  ⟨.var, 3666, .other⟩,
  ⟨.var, 3729, .other⟩,
  ⟨.var, 3894, .other⟩,
  ⟨.var, 3965, .other⟩,
  ⟨.con, 4034, (.valueSpec [⟨3609, s12, (some 27)⟩] [.other 3612 [.basicLit 3610, .basicLit 3611]])⟩,
  ⟨.var, 4180, .other⟩,
  ⟨.var, 4250, .other⟩,
  ⟨.var, 4698, .other⟩,
  ⟨.var, 4879, .other⟩,
  ⟨.var, 5061, .other⟩,
  ⟨.var, 5127, .other⟩,
  ⟨.var, 5296, .other⟩,
  ⟨.var, 5363, .other⟩,
  ⟨.var, 5548, .other⟩,
  ⟨.var, 5670, .other⟩,
  ⟨.var, 5756, .other⟩,
  ⟨.var, 5764, .other⟩,
  ⟨.var, 5875, .other⟩,
  ⟨.var, 6028, .other⟩,
  ⟨.var, 6124, .other⟩,
  ⟨.var, 6209, .other⟩,
  ⟨.var, 6304, .other⟩,
  ⟨.var, 6359, .other⟩,
  ⟨.var, 6439, .other⟩,
  ⟨.var, 6447, .other⟩,
  ⟨.var, 6455, .other⟩,
  ⟨.var, 6553, .other⟩,
  ⟨.var, 6908, .other⟩,
  ⟨.var, 6990, .other⟩,
  ⟨.var, 6993, .other⟩,
  ⟨.var, 7001, .other⟩,
  ⟨.var, 7094, .other⟩,
  ⟨.var, 7151, .other⟩,
  ⟨.var, 7233, .other⟩,
  ⟨.var, 7239, .other⟩,
  ⟨.typ, 7259, .typeSpec⟩,
  ⟨.var, 7280, .other⟩,
  ⟨.var, 7283, .other⟩,
  ⟨.var, 7286, .other⟩,
  ⟨.typ, 7299, .typeSpec⟩,
  ⟨.var, 7450, .other⟩,
  ⟨.var, 7453, .other⟩,
  ⟨.var, 7475, .other⟩,
  ⟨.var, 7538, .other⟩,
  ⟨.var, 7753, .other⟩,
  ⟨.var, 7767, .other⟩,
  ⟨.var, 7770, .other⟩,
  ⟨.var, 7806, .other⟩,
  ⟨.var, 7870, .other⟩,
  ⟨.var, 8078, .other⟩,
  ⟨.var, 8089, .other⟩,
  ⟨.var, 8107, .other⟩,
  ⟨.var, 8175, .other⟩,
  ⟨.var, 8408, .other⟩,
  ⟨.var, 8623, .other⟩,
  ⟨.var, 8735, .other⟩,
  ⟨.var, 8866, .other⟩,
  ⟨.var, 9017, .other⟩,
  ⟨.var, 9184, .other⟩,
  ⟨.var, 9251, .other⟩,
  ⟨.var, 9448, .other⟩,
  ⟨.var, 9595, .other⟩,
  ⟨.typ, 9670, .typeSpec⟩,
  ⟨.var, 9823, .other⟩,
  ⟨.var, 9844, .other⟩,
  ⟨.var, 9851, .other⟩,
  ⟨.var, 9871, .other⟩,
  ⟨.var, 10094, .other⟩,
  ⟨.var, 10329, .other⟩,
  ⟨.typ, 10569, .typeSpec⟩,
  ⟨.var, 10678, .other⟩,
  ⟨.typ, 10854, .typeSpec⟩,
  ⟨.var, 10990, .other⟩,
  ⟨.var, 11105, .other⟩,
  ⟨.typ, 11161, .typeSpec⟩,
  ⟨.var, 11271, .other⟩,
  ⟨.var, 11295, .other⟩,
  ⟨.var, 11325, .other⟩,
  ⟨.var, 11403, .other⟩,
  ⟨.typ, 11460, .typeSpec⟩,
  ⟨.var, 11580, .other⟩,
  ⟨.var, 11604, .other⟩,
  ⟨.var, 11634, .other⟩,
  ⟨.var, 11650, .other⟩,
  ⟨.var, 11773, .other⟩,
  ⟨.typ, 11830, .typeSpec⟩,
  ⟨.var, 11940, .other⟩,
  ⟨.var, 12022, .other⟩,
  ⟨.var, 12052, .other⟩,
  ⟨.typ, 12282, .typeSpec⟩,
  ⟨.var, 12398, .other⟩,
  ⟨.var, 12422, .other⟩,
  ⟨.var, 12464, .other⟩,
  ⟨.typ, 12580, .typeSpec⟩,
  ⟨.var, 12718, .other⟩,
  ⟨.var, 12742, .other⟩,
  ⟨.var, 12784, .other⟩,
  ⟨.var, 12803, .other⟩,
  ⟨.var, 12831, (.valueSpec [⟨4794, s25, (some 121)⟩] [])⟩,
  ⟨.var, 12898, .other⟩]
/-- Types of expressions (`Info.Types`, `Info.Defs`, `Info.Uses`). -/
def typeTable : Tree GoType := (.node (.node (.node (.node (.node (.node (.node (.node (.node (.node Tree.nil 3298 (.signature 6) Tree.nil) 3300
  (.named 19) (.node Tree.nil 3303 (.signature 6) Tree.nil)) 3304 (.string) (.node (.node Tree.nil 3305 (.string) Tree.nil) 3309 (.other 10)
  Tree.nil)) 3310 (.named 343) (.node (.node (.node Tree.nil 3311 (.named 343) Tree.nil) 3312 (.pointer (.named 343)) Tree.nil) 3315 (.other 10)
  (.node (.node Tree.nil 3316 (.named 346) Tree.nil) 3317 (.named 346) Tree.nil))) 3318 (.pointer (.named 346)) (.node (.node (.node (.node Tree.nil
  3321 (.other 10) Tree.nil) 3322 (.named 350) (.node Tree.nil 3323 (.named 350) Tree.nil)) 3324 (.pointer (.named 350)) (.node (.node Tree.nil 3327
  (.other 10) Tree.nil) 3328 (.named 353) Tree.nil)) 3329 (.named 353) (.node (.node (.node Tree.nil 3330 (.pointer (.named 353)) Tree.nil) 3333
  (.other 10) Tree.nil) 3334 (.named 356) (.node (.node Tree.nil 3335 (.named 356) Tree.nil) 3336 (.pointer (.named 356)) Tree.nil)))) 3339 (.other
  10) (.node (.node (.node (.node (.node Tree.nil 3340 (.named 359) Tree.nil) 3341 (.named 359) (.node Tree.nil 3344 (.other 10) Tree.nil)) 3345
  (.named 362) (.node (.node Tree.nil 3346 (.named 362) Tree.nil) 3347 (.pointer (.named 362)) Tree.nil)) 3350 (.other 10) (.node (.node (.node
  Tree.nil 3351 (.named 365) Tree.nil) 3352 (.named 365) Tree.nil) 3353 (.pointer (.named 365)) (.node (.node Tree.nil 3356 (.other 10) Tree.nil)
  3357 (.named 368) Tree.nil))) 3358 (.named 368) (.node (.node (.node (.node Tree.nil 3359 (.pointer (.named 368)) Tree.nil) 3362 (.other 10)
  Tree.nil) 3363 (.named 371) (.node (.node Tree.nil 3364 (.named 371) Tree.nil) 3365 (.pointer (.named 371)) Tree.nil)) 3368 (.other 10) (.node
  (.node (.node Tree.nil 3369 (.named 373) Tree.nil) 3370 (.string) Tree.nil) 3371 (.named 373) (.node (.node Tree.nil 3372 (.pointer (.named 373))
  Tree.nil) 3375 (.other 10) Tree.nil))))) 3376 (.named 376) (.node (.node (.node (.node (.node (.node Tree.nil 3377 (.string) Tree.nil) 3378
  (.string) (.node Tree.nil 3379 (.string) Tree.nil)) 3380 (.named 376) (.node (.node Tree.nil 3381 (.pointer (.named 376)) Tree.nil) 3384 (.other
  10) Tree.nil)) 3385 (.named 379) (.node (.node (.node Tree.nil 3386 (.string) Tree.nil) 3387 (.string) Tree.nil) 3388 (.string) (.node (.node
  Tree.nil 3389 (.named 379) Tree.nil) 3390 (.pointer (.named 379)) Tree.nil))) 3393 (.other 10) (.node (.node (.node (.node Tree.nil 3394 (.named
  373) Tree.nil) 3395 (.string) (.node Tree.nil 3396 (.named 373) Tree.nil)) 3397 (.pointer (.named 373)) (.node (.node Tree.nil 3400 (.other 10)
  Tree.nil) 3401 (.named 373) Tree.nil)) 3402 (.string) (.node (.node (.node Tree.nil 3403 (.string) Tree.nil) 3405 (.named 373) Tree.nil) 3406
  (.pointer (.named 373)) (.node (.node Tree.nil 3409 (.other 10) Tree.nil) 3410 (.named 376) Tree.nil)))) 3411 (.string) (.node (.node (.node
  (.node (.node Tree.nil 3412 (.string) Tree.nil) 3414 (.string) (.node Tree.nil 3415 (.string) Tree.nil)) 3417 (.string) (.node (.node Tree.nil
  3418 (.string) Tree.nil) 3420 (.named 376) Tree.nil)) 3421 (.pointer (.named 376)) (.node (.node (.node Tree.nil 3424 (.other 10) Tree.nil) 3425
  (.named 373) Tree.nil) 3426 (.string) (.node (.node Tree.nil 3427 (.named 373) Tree.nil) 3428 (.pointer (.named 373)) Tree.nil))) 3431 (.other 10)
  (.node (.node (.node (.node Tree.nil 3432 (.named 373) Tree.nil) 3433 (.named 373) Tree.nil) 3434 (.pointer (.named 373)) (.node (.node Tree.nil
  3437 (.other 10) Tree.nil) 3438 (.named 376) Tree.nil)) 3439 (.string) (.node (.node (.node Tree.nil 3440 (.string) Tree.nil) 3442 (.named 376)
  Tree.nil) 3443 (.pointer (.named 376)) (.node (.node Tree.nil 3446 (.other 10) Tree.nil) 3447 (.named 373) Tree.nil)))))) 3448 (.string) (.node
  (.node (.node (.node (.node (.node (.node Tree.nil 3449 (.named 373) Tree.nil) 3450 (.pointer (.named 373)) (.node Tree.nil 3453 (.other 10)
  Tree.nil)) 3454 (.named 376) (.node (.node Tree.nil 3455 (.string) Tree.nil) 3456 (.string) Tree.nil)) 3458 (.string) (.node (.node (.node
  Tree.nil 3459 (.string) Tree.nil) 3461 (.named 376) Tree.nil) 3462 (.pointer (.named 376)) (.node (.node Tree.nil 3465 (.other 10) Tree.nil) 3466
  (.named 373) Tree.nil))) 3467 (.string) (.node (.node (.node (.node Tree.nil 3468 (.named 373) Tree.nil) 3469 (.pointer (.named 373)) (.node
  Tree.nil 3472 (.other 10) Tree.nil)) 3473 (.named 385) (.node (.node Tree.nil 3474 (.named 382) Tree.nil) 3475 (.string) Tree.nil)) 3476 (.string)
  (.node (.node (.node Tree.nil 3477 (.named 382) Tree.nil) 3478 (.string) Tree.nil) 3479 (.string) (.node (.node Tree.nil 3480 (.named 385)
  Tree.nil) 3481 (.pointer (.named 385)) Tree.nil)))) 3484 (.other 10) (.node (.node (.node (.node (.node Tree.nil 3485 (.named 388) Tree.nil) 3486
  (.string) (.node Tree.nil 3487 (.string) Tree.nil)) 3489 (.named 388) (.node (.node Tree.nil 3490 (.pointer (.named 388)) Tree.nil) 3493 (.other
  10) Tree.nil)) 3494 (.named 391) (.node (.node (.node Tree.nil 3495 (.untypedNil) Tree.nil) 3496 (.string) Tree.nil) 3497 (.string) (.node (.node
  Tree.nil 3498 (.named 391) Tree.nil) 3499 (.pointer (.named 391)) Tree.nil))) 3502 (.other 10) (.node (.node (.node (.node Tree.nil 3503 (.named
  394) Tree.nil) 3504 (.named 382) Tree.nil) 3505 (.string) (.node (.node Tree.nil 3506 (.string) Tree.nil) 3507 (.named 382) Tree.nil)) 3508
  (.named 394) (.node (.node (.node Tree.nil 3509 (.pointer (.named 394)) Tree.nil) 3512 (.other 10) Tree.nil) 3513 (.named 397) (.node (.node
  Tree.nil 3514 (.string) Tree.nil) 3515 (.named 397) Tree.nil))))) 3516 (.pointer (.named 397)) (.node (.node (.node (.node (.node (.node Tree.nil
  3519 (.other 10) Tree.nil) 3520 (.named 400) (.node Tree.nil 3521 (.named 400) Tree.nil)) 3522 (.named 400) (.node (.node Tree.nil 3525 (.other
  10) Tree.nil) 3526 (.named 403) Tree.nil)) 3527 (.named 403) (.node (.node (.node Tree.nil 3528 (.named 403) Tree.nil) 3533 (.untypedNil)
  Tree.nil) 3537 (.named 343) (.node (.node Tree.nil 3539 (.struct 2) Tree.nil) 3542 (.pointer (.named 343)) Tree.nil))) 3543 (.named 343) (.node
  (.node (.node (.node Tree.nil 3544 (.pointer (.named 343)) Tree.nil) 3547 (.signature 11) (.node Tree.nil 3549 (.string) Tree.nil)) 3552
  (.signature 11) (.node (.node Tree.nil 3553 (.string) Tree.nil) 3557 (.pointer (.named 343)) Tree.nil)) 3558 (.named 343) (.node (.node (.node
  Tree.nil 3559 (.pointer (.named 343)) Tree.nil) 3562 (.signature 11) Tree.nil) 3564 (.string) (.node (.node Tree.nil 3567 (.signature 11)
  Tree.nil) 3568 (.string) Tree.nil)))) 3572 (.named 346) (.node (.node (.node (.node (.node Tree.nil 3574 (.struct 2) Tree.nil) 3577 (.pointer
  (.named 346)) (.node Tree.nil 3578 (.named 346) Tree.nil)) 3579 (.pointer (.named 346)) (.node (.node Tree.nil 3582 (.signature 11) Tree.nil) 3584
  (.string) Tree.nil)) 3587 (.signature 11) (.node (.node (.node Tree.nil 3588 (.string) Tree.nil) 3589 (.string) Tree.nil) 3590 (.string) (.node
  (.node Tree.nil 3594 (.pointer (.named 346)) Tree.nil) 3595 (.named 346) Tree.nil))) 3596 (.pointer (.named 346)) (.node (.node (.node (.node
  Tree.nil 3599 (.signature 11) Tree.nil) 3601 (.string) Tree.nil) 3604 (.signature 11) (.node (.node Tree.nil 3605 (.string) Tree.nil) 3609 (.other
  31) Tree.nil)) 3610 (.other 31) (.node (.node (.node Tree.nil 3611 (.other 31) Tree.nil) 3612 (.other 31) Tree.nil) 3615 (.named 350) (.node
  (.node Tree.nil 3617 (.struct 2) Tree.nil) 3620 (.pointer (.named 350)) Tree.nil))))))) 3621 (.named 350) (.node (.node (.node (.node (.node
  (.node (.node (.node Tree.nil 3622 (.pointer (.named 350)) Tree.nil) 3625 (.signature 11) (.node Tree.nil 3627 (.string) Tree.nil)) 3630
  (.signature 11) (.node (.node Tree.nil 3631 (.string) Tree.nil) 3635 (.pointer (.named 350)) Tree.nil)) 3636 (.named 350) (.node (.node (.node
  Tree.nil 3637 (.pointer (.named 350)) Tree.nil) 3640 (.signature 11) Tree.nil) 3642 (.string) (.node (.node Tree.nil 3645 (.signature 11)
  Tree.nil) 3646 (.string) Tree.nil))) 3650 (.named 353) (.node (.node (.node (.node Tree.nil 3652 (.struct 2) Tree.nil) 3655 (.named 353) (.node
  Tree.nil 3656 (.pointer (.named 353)) Tree.nil)) 3659 (.signature 11) (.node (.node Tree.nil 3661 (.string) Tree.nil) 3664 (.signature 11)
  Tree.nil)) 3665 (.string) (.node (.node (.node Tree.nil 3669 (.named 353) Tree.nil) 3670 (.pointer (.named 353)) Tree.nil) 3673 (.signature 11)
  (.node (.node Tree.nil 3675 (.string) Tree.nil) 3678 (.signature 11) Tree.nil)))) 3679 (.string) (.node (.node (.node (.node (.node Tree.nil 3683
  (.named 356) Tree.nil) 3685 (.struct 2) (.node Tree.nil 3688 (.pointer (.named 356)) Tree.nil)) 3689 (.named 356) (.node (.node Tree.nil 3690
  (.pointer (.named 356)) Tree.nil) 3693 (.signature 11) Tree.nil)) 3695 (.string) (.node (.node (.node Tree.nil 3698 (.signature 11) Tree.nil) 3699
  (.other 10) Tree.nil) 3700 (.string) (.node (.node Tree.nil 3703 (.other 10) Tree.nil) 3704 (.string) Tree.nil))) 3707 (.string) (.node (.node
  (.node (.node Tree.nil 3714 (.pointer (.named 356)) Tree.nil) 3715 (.named 356) Tree.nil) 3716 (.pointer (.named 356)) (.node (.node Tree.nil 3719
  (.signature 11) Tree.nil) 3721 (.string) Tree.nil)) 3724 (.signature 11) (.node (.node (.node Tree.nil 3725 (.string) Tree.nil) 3729 (.named 359)
  Tree.nil) 3731 (.struct 2) (.node (.node Tree.nil 3734 (.named 359) Tree.nil) 3735 (.named 359) Tree.nil))))) 3738 (.signature 11) (.node (.node
  (.node (.node (.node (.node Tree.nil 3740 (.string) Tree.nil) 3743 (.signature 11) (.node Tree.nil 3744 (.string) Tree.nil)) 3748 (.named 359)
  (.node (.node Tree.nil 3749 (.named 359) Tree.nil) 3752 (.signature 11) Tree.nil)) 3754 (.string) (.node (.node (.node Tree.nil 3757 (.signature
  11) Tree.nil) 3758 (.string) Tree.nil) 3762 (.named 362) (.node (.node Tree.nil 3764 (.struct 2) Tree.nil) 3767 (.named 362) Tree.nil))) 3768
  (.named 362) (.node (.node (.node (.node Tree.nil 3771 (.signature 11) Tree.nil) 3773 (.string) (.node Tree.nil 3776 (.signature 11) Tree.nil))
  3777 (.string) (.node (.node Tree.nil 3781 (.named 362) Tree.nil) 3782 (.named 362) Tree.nil)) 3785 (.signature 11) (.node (.node (.node Tree.nil
  3787 (.string) Tree.nil) 3790 (.signature 11) Tree.nil) 3791 (.string) (.node (.node Tree.nil 3795 (.named 365) Tree.nil) 3797 (.struct 2)
  Tree.nil)))) 3800 (.pointer (.named 365)) (.node (.node (.node (.node (.node Tree.nil 3801 (.named 365) Tree.nil) 3802 (.pointer (.named 365))
  (.node Tree.nil 3805 (.signature 11) Tree.nil)) 3807 (.string) (.node (.node Tree.nil 3810 (.signature 11) Tree.nil) 3811 (.string) Tree.nil))
  3815 (.pointer (.named 365)) (.node (.node (.node Tree.nil 3816 (.named 365) Tree.nil) 3817 (.pointer (.named 365)) Tree.nil) 3820 (.signature 11)
  (.node (.node Tree.nil 3822 (.string) Tree.nil) 3825 (.signature 11) Tree.nil))) 3826 (.string) (.node (.node (.node (.node Tree.nil 3830 (.named
  368) Tree.nil) 3831 (.string) Tree.nil) 3832 (.string) (.node (.node Tree.nil 3833 (.string) Tree.nil) 3836 (.struct 40) Tree.nil)) 3839 (.pointer
  (.named 368)) (.node (.node (.node Tree.nil 3840 (.named 368) Tree.nil) 3841 (.pointer (.named 368)) Tree.nil) 3844 (.signature 11) (.node (.node
  Tree.nil 3846 (.string) Tree.nil) 3849 (.signature 11) Tree.nil)))))) 3850 (.pointer (.named 368)) (.node (.node (.node (.node (.node (.node
  (.node Tree.nil 3851 (.string) Tree.nil) 3852 (.string) (.node Tree.nil 3853 (.pointer (.named 368)) Tree.nil)) 3854 (.string) (.node (.node
  Tree.nil 3855 (.string) Tree.nil) 3856 (.string) Tree.nil)) 3860 (.pointer (.named 368)) (.node (.node (.node Tree.nil 3861 (.named 368) Tree.nil)
  3862 (.pointer (.named 368)) Tree.nil) 3865 (.signature 11) (.node (.node Tree.nil 3867 (.string) Tree.nil) 3870 (.signature 11) Tree.nil))) 3871
  (.string) (.node (.node (.node (.node Tree.nil 3875 (.named 371) Tree.nil) 3877 (.struct 2) (.node Tree.nil 3880 (.pointer (.named 371))
  Tree.nil)) 3881 (.named 371) (.node (.node Tree.nil 3882 (.pointer (.named 371)) Tree.nil) 3885 (.signature 11) Tree.nil)) 3887 (.string) (.node
  (.node (.node Tree.nil 3890 (.signature 11) Tree.nil) 3891 (.string) Tree.nil) 3895 (.named 373) (.node (.node Tree.nil 3896 (.string) Tree.nil)
  3897 (.string) Tree.nil)))) 3900 (.struct 36) (.node (.node (.node (.node (.node Tree.nil 3903 (.pointer (.named 373)) Tree.nil) 3904 (.named 373)
  (.node Tree.nil 3905 (.pointer (.named 373)) Tree.nil)) 3908 (.signature 11) (.node (.node Tree.nil 3910 (.string) Tree.nil) 3913 (.signature 11)
  Tree.nil)) 3914 (.pointer (.named 373)) (.node (.node (.node Tree.nil 3915 (.string) Tree.nil) 3916 (.string) Tree.nil) 3920 (.pointer (.named
  373)) (.node (.node Tree.nil 3921 (.named 373) Tree.nil) 3922 (.pointer (.named 373)) Tree.nil))) 3925 (.signature 11) (.node (.node (.node (.node
  Tree.nil 3927 (.string) Tree.nil) 3930 (.signature 11) Tree.nil) 3931 (.string) (.node (.node Tree.nil 3935 (.named 376) Tree.nil) 3936 (.string)
  Tree.nil)) 3937 (.string) (.node (.node (.node Tree.nil 3938 (.string) Tree.nil) 3939 (.string) Tree.nil) 3942 (.struct 38) (.node (.node Tree.nil
  3945 (.pointer (.named 376)) Tree.nil) 3946 (.named 376) Tree.nil))))) 3947 (.pointer (.named 376)) (.node (.node (.node (.node (.node (.node
  Tree.nil 3950 (.signature 11) Tree.nil) 3952 (.string) (.node Tree.nil 3955 (.signature 11) Tree.nil)) 3956 (.other 10) (.node (.node Tree.nil
  3957 (.pointer (.named 376)) Tree.nil) 3958 (.string) Tree.nil)) 3959 (.string) (.node (.node (.node Tree.nil 3962 (.other 10) Tree.nil) 3963
  (.pointer (.named 376)) Tree.nil) 3964 (.string) (.node (.node Tree.nil 3965 (.string) Tree.nil) 3968 (.pointer (.named 376)) Tree.nil))) 3969
  (.string) (.node (.node (.node (.node Tree.nil 3970 (.string) Tree.nil) 3977 (.pointer (.named 376)) Tree.nil) 3978 (.named 376) (.node (.node
  Tree.nil 3979 (.pointer (.named 376)) Tree.nil) 3982 (.signature 11) Tree.nil)) 3984 (.string) (.node (.node (.node Tree.nil 3987 (.signature 11)
  Tree.nil) 3988 (.string) Tree.nil) 3992 (.named 379) (.node (.node Tree.nil 3993 (.string) Tree.nil) 3994 (.string) Tree.nil)))) 3995 (.string)
  (.node (.node (.node (.node (.node Tree.nil 3996 (.string) Tree.nil) 3999 (.struct 42) (.node Tree.nil 4002 (.pointer (.named 379)) Tree.nil))
  4003 (.named 379) (.node (.node Tree.nil 4004 (.pointer (.named 379)) Tree.nil) 4007 (.signature 11) Tree.nil)) 4009 (.string) (.node (.node
  (.node Tree.nil 4012 (.signature 11) Tree.nil) 4013 (.pointer (.named 379)) Tree.nil) 4014 (.string) (.node (.node Tree.nil 4015 (.string)
  Tree.nil) 4019 (.pointer (.named 379)) Tree.nil))) 4020 (.named 379) (.node (.node (.node (.node Tree.nil 4021 (.pointer (.named 379)) Tree.nil)
  4024 (.signature 11) Tree.nil) 4026 (.string) (.node (.node Tree.nil 4029 (.signature 11) Tree.nil) 4030 (.string) Tree.nil)) 4034 (.named 382)
  (.node (.node (.node Tree.nil 4035 (.string) Tree.nil) 4036 (.string) Tree.nil) 4037 (.string) (.node (.node Tree.nil 4040 (.struct 35) Tree.nil)
  4043 (.named 383) Tree.nil)))))))) 4044 (.other 8) (.node (.node (.node (.node (.node (.node (.node (.node (.node Tree.nil 4045 (.other 8)
  Tree.nil) 4046 (.other 8) (.node Tree.nil 4047 (.other 8) Tree.nil)) 4050 (.struct 37) (.node (.node Tree.nil 4053 (.named 384) Tree.nil) 4055
  (.struct 2) Tree.nil)) 4058 (.named 385) (.node (.node (.node Tree.nil 4059 (.named 382) Tree.nil) 4061 (.string) Tree.nil) 4062 (.string) (.node
  (.node Tree.nil 4063 (.string) Tree.nil) 4066 (.struct 41) Tree.nil))) 4069 (.pointer (.named 385)) (.node (.node (.node (.node Tree.nil 4070
  (.named 385) Tree.nil) 4071 (.pointer (.named 385)) (.node Tree.nil 4074 (.signature 11) Tree.nil)) 4076 (.string) (.node (.node Tree.nil 4079
  (.signature 11) Tree.nil) 4080 (.pointer (.named 385)) Tree.nil)) 4081 (.string) (.node (.node (.node Tree.nil 4082 (.string) Tree.nil) 4086
  (.pointer (.named 385)) Tree.nil) 4087 (.named 385) (.node (.node Tree.nil 4088 (.pointer (.named 385)) Tree.nil) 4091 (.signature 11)
  Tree.nil)))) 4093 (.string) (.node (.node (.node (.node (.node Tree.nil 4096 (.signature 11) Tree.nil) 4097 (.string) (.node Tree.nil 4101 (.named
  388) Tree.nil)) 4102 (.named 382) (.node (.node Tree.nil 4104 (.named 383) Tree.nil) 4106 (.other 8) Tree.nil)) 4107 (.other 8) (.node (.node
  (.node Tree.nil 4109 (.string) Tree.nil) 4110 (.string) Tree.nil) 4111 (.string) (.node (.node Tree.nil 4113 (.named 384) Tree.nil) 4116 (.struct
  39) Tree.nil))) 4119 (.pointer (.named 388)) (.node (.node (.node (.node Tree.nil 4120 (.named 388) Tree.nil) 4121 (.pointer (.named 388))
  Tree.nil) 4124 (.signature 11) (.node (.node Tree.nil 4126 (.string) Tree.nil) 4129 (.signature 11) Tree.nil)) 4130 (.pointer (.named 388)) (.node
  (.node (.node Tree.nil 4131 (.string) Tree.nil) 4132 (.string) Tree.nil) 4136 (.pointer (.named 388)) (.node (.node Tree.nil 4137 (.named 388)
  Tree.nil) 4138 (.pointer (.named 388)) Tree.nil))))) 4141 (.signature 11) (.node (.node (.node (.node (.node (.node Tree.nil 4143 (.string)
  Tree.nil) 4146 (.signature 11) (.node Tree.nil 4147 (.string) Tree.nil)) 4151 (.named 391) (.node (.node Tree.nil 4152 (.named 382) Tree.nil) 4153
  (.pointer (.named 382)) Tree.nil)) 4155 (.string) (.node (.node (.node Tree.nil 4156 (.string) Tree.nil) 4157 (.string) Tree.nil) 4160 (.struct
  33) (.node (.node Tree.nil 4163 (.pointer (.named 391)) Tree.nil) 4164 (.named 391) Tree.nil))) 4165 (.pointer (.named 391)) (.node (.node (.node
  (.node Tree.nil 4168 (.signature 11) Tree.nil) 4170 (.string) (.node Tree.nil 4173 (.signature 11) Tree.nil)) 4174 (.pointer (.named 391)) (.node
  (.node Tree.nil 4175 (.string) Tree.nil) 4176 (.string) Tree.nil)) 4180 (.pointer (.named 391)) (.node (.node (.node Tree.nil 4181 (.named 391)
  Tree.nil) 4182 (.pointer (.named 391)) Tree.nil) 4185 (.signature 11) (.node (.node Tree.nil 4187 (.string) Tree.nil) 4190 (.signature 11)
  Tree.nil)))) 4191 (.string) (.node (.node (.node (.node (.node Tree.nil 4195 (.named 394) Tree.nil) 4196 (.named 382) (.node Tree.nil 4199
  (.struct 43) Tree.nil)) 4202 (.pointer (.named 394)) (.node (.node Tree.nil 4203 (.named 394) Tree.nil) 4204 (.pointer (.named 394)) Tree.nil))
  4207 (.signature 11) (.node (.node (.node Tree.nil 4209 (.string) Tree.nil) 4212 (.signature 11) Tree.nil) 4213 (.pointer (.named 394)) (.node
  (.node Tree.nil 4214 (.string) Tree.nil) 4215 (.string) Tree.nil))) 4219 (.pointer (.named 394)) (.node (.node (.node (.node Tree.nil 4220 (.named
  394) Tree.nil) 4221 (.pointer (.named 394)) Tree.nil) 4224 (.signature 11) (.node (.node Tree.nil 4226 (.string) Tree.nil) 4229 (.signature 11)
  Tree.nil)) 4230 (.string) (.node (.node (.node Tree.nil 4234 (.named 397) Tree.nil) 4235 (.string) Tree.nil) 4236 (.string) (.node (.node Tree.nil
  4239 (.struct 36) Tree.nil) 4242 (.pointer (.named 397)) Tree.nil)))))) 4243 (.named 397) (.node (.node (.node (.node (.node (.node (.node
  Tree.nil 4244 (.pointer (.named 397)) Tree.nil) 4247 (.signature 11) (.node Tree.nil 4249 (.string) Tree.nil)) 4252 (.signature 11) (.node (.node
  Tree.nil 4253 (.other 10) Tree.nil) 4254 (.pointer (.named 397)) Tree.nil)) 4255 (.string) (.node (.node (.node Tree.nil 4256 (.string) Tree.nil)
  4259 (.other 10) Tree.nil) 4260 (.string) (.node (.node Tree.nil 4265 (.string) Tree.nil) 4269 (.pointer (.named 397)) Tree.nil))) 4270 (.named
  397) (.node (.node (.node (.node Tree.nil 4271 (.pointer (.named 397)) Tree.nil) 4274 (.signature 11) (.node Tree.nil 4276 (.string) Tree.nil))
  4279 (.signature 11) (.node (.node Tree.nil 4280 (.string) Tree.nil) 4284 (.named 400) Tree.nil)) 4285 (.string) (.node (.node (.node Tree.nil
  4288 (.named 400) Tree.nil) 4289 (.named 400) Tree.nil) 4292 (.signature 11) (.node (.node Tree.nil 4294 (.string) Tree.nil) 4297 (.signature 11)
  Tree.nil)))) 4298 (.string) (.node (.node (.node (.node (.node Tree.nil 4302 (.named 400) Tree.nil) 4303 (.named 400) (.node Tree.nil 4306
  (.signature 11) Tree.nil)) 4308 (.string) (.node (.node Tree.nil 4311 (.signature 11) Tree.nil) 4312 (.string) Tree.nil)) 4316 (.named 403) (.node
  (.node (.node Tree.nil 4317 (.string) Tree.nil) 4320 (.named 403) Tree.nil) 4321 (.named 403) (.node (.node Tree.nil 4324 (.signature 11)
  Tree.nil) 4326 (.string) Tree.nil))) 4329 (.signature 11) (.node (.node (.node (.node Tree.nil 4330 (.string) Tree.nil) 4331 (.named 403)
  Tree.nil) 4332 (.string) (.node (.node Tree.nil 4336 (.named 403) Tree.nil) 4337 (.named 403) Tree.nil)) 4340 (.signature 11) (.node (.node (.node
  Tree.nil 4342 (.string) Tree.nil) 4345 (.signature 11) Tree.nil) 4346 (.string) (.node (.node Tree.nil 4350 (.named 406) Tree.nil) 4351 (.string)
  Tree.nil))))) 4352 (.string) (.node (.node (.node (.node (.node (.node Tree.nil 4354 (.other 10) Tree.nil) 4355 (.other 10) (.node Tree.nil 4356
  (.other 10) Tree.nil)) 4359 (.struct 34) (.node (.node Tree.nil 4362 (.pointer (.named 406)) Tree.nil) 4363 (.named 406) Tree.nil)) 4364 (.pointer
  (.named 406)) (.node (.node (.node Tree.nil 4367 (.signature 11) Tree.nil) 4369 (.string) Tree.nil) 4372 (.signature 11) (.node (.node Tree.nil
  4373 (.pointer (.named 406)) Tree.nil) 4374 (.other 10) Tree.nil))) 4375 (.other 10) (.node (.node (.node (.node Tree.nil 4377 (.pointer (.named
  406)) Tree.nil) 4378 (.string) (.node Tree.nil 4379 (.string) Tree.nil)) 4380 (.string) (.node (.node Tree.nil 4384 (.pointer (.named 406))
  Tree.nil) 4385 (.other 10) Tree.nil)) 4386 (.other 10) (.node (.node (.node Tree.nil 4388 (.pointer (.named 406)) Tree.nil) 4389 (.string)
  Tree.nil) 4390 (.string) (.node (.node Tree.nil 4391 (.pointer (.named 406)) Tree.nil) 4392 (.string) Tree.nil)))) 4393 (.string) (.node (.node
  (.node (.node (.node Tree.nil 4394 (.string) Tree.nil) 4395 (.string) (.node Tree.nil 4399 (.pointer (.named 406)) Tree.nil)) 4400 (.string)
  (.node (.node Tree.nil 4401 (.string) Tree.nil) 4405 (.pointer (.named 406)) Tree.nil)) 4406 (.named 406) (.node (.node (.node Tree.nil 4407
  (.pointer (.named 406)) Tree.nil) 4410 (.signature 11) Tree.nil) 4412 (.string) (.node (.node Tree.nil 4415 (.signature 11) Tree.nil) 4416
  (.pointer (.named 406)) Tree.nil))) 4417 (.other 10) (.node (.node (.node (.node Tree.nil 4418 (.other 10) Tree.nil) 4420 (.pointer (.named 406))
  Tree.nil) 4421 (.string) (.node (.node Tree.nil 4422 (.string) Tree.nil) 4423 (.string) Tree.nil)) 4427 (.pointer (.named 406)) (.node (.node
  (.node Tree.nil 4428 (.other 10) Tree.nil) 4429 (.other 10) Tree.nil) 4431 (.pointer (.named 406)) (.node (.node Tree.nil 4432 (.string) Tree.nil)
  4433 (.string) Tree.nil))))))) 4434 (.pointer (.named 406)) (.node (.node (.node (.node (.node (.node (.node (.node Tree.nil 4435 (.string)
  Tree.nil) 4436 (.string) (.node Tree.nil 4437 (.string) Tree.nil)) 4438 (.string) (.node (.node Tree.nil 4442 (.string) Tree.nil) 4446 (.pointer
  (.named 406)) Tree.nil)) 4447 (.named 406) (.node (.node (.node Tree.nil 4448 (.pointer (.named 406)) Tree.nil) 4451 (.signature 11) Tree.nil)
  4453 (.string) (.node (.node Tree.nil 4456 (.signature 11) Tree.nil) 4457 (.pointer (.named 406)) Tree.nil))) 4458 (.other 10) (.node (.node
  (.node (.node Tree.nil 4459 (.other 10) Tree.nil) 4461 (.pointer (.named 406)) (.node Tree.nil 4462 (.string) Tree.nil)) 4463 (.string) (.node
  (.node Tree.nil 4464 (.string) Tree.nil) 4468 (.pointer (.named 406)) Tree.nil)) 4469 (.other 10) (.node (.node (.node Tree.nil 4470 (.other 10)
  Tree.nil) 4472 (.pointer (.named 406)) Tree.nil) 4473 (.string) (.node (.node Tree.nil 4474 (.string) Tree.nil) 4475 (.pointer (.named 406))
  Tree.nil)))) 4476 (.string) (.node (.node (.node (.node (.node Tree.nil 4477 (.string) Tree.nil) 4478 (.string) (.node Tree.nil 4479 (.string)
  Tree.nil)) 4483 (.string) (.node (.node Tree.nil 4487 (.named 410) Tree.nil) 4489 (.struct 2) Tree.nil)) 4492 (.pointer (.named 410)) (.node
  (.node (.node Tree.nil 4493 (.named 410) Tree.nil) 4494 (.pointer (.named 410)) Tree.nil) 4497 (.signature 11) (.node (.node Tree.nil 4499
  (.string) Tree.nil) 4502 (.signature 11) Tree.nil))) 4503 (.pointer (.named 410)) (.node (.node (.node (.node Tree.nil 4504 (.untypedNil)
  Tree.nil) 4505 (.other 10) Tree.nil) 4507 (.string) (.node (.node Tree.nil 4511 (.string) Tree.nil) 4515 (.named 410) Tree.nil)) 4516 (.pointer
  (.named 410)) (.node (.node (.node Tree.nil 4519 (.signature 11) Tree.nil) 4521 (.string) Tree.nil) 4524 (.signature 11) (.node (.node Tree.nil
  4525 (.string) Tree.nil) 4529 (.named 413) Tree.nil))))) 4531 (.struct 2) (.node (.node (.node (.node (.node (.node Tree.nil 4534 (.named 413)
  Tree.nil) 4535 (.pointer (.named 413)) (.node Tree.nil 4538 (.signature 11) Tree.nil)) 4540 (.string) (.node (.node Tree.nil 4541 (.string)
  Tree.nil) 4544 (.signature 11) Tree.nil)) 4545 (.string) (.node (.node (.node Tree.nil 4546 (.string) Tree.nil) 4548 (.other 10) Tree.nil) 4550
  (.string) (.node (.node Tree.nil 4551 (.string) Tree.nil) 4558 (.named 413) Tree.nil))) 4559 (.pointer (.named 413)) (.node (.node (.node (.node
  Tree.nil 4562 (.signature 11) Tree.nil) 4564 (.string) (.node Tree.nil 4565 (.string) Tree.nil)) 4568 (.signature 11) (.node (.node Tree.nil 4569
  (.string) Tree.nil) 4570 (.string) Tree.nil)) 4575 (.named 416) (.node (.node (.node Tree.nil 4576 (.string) Tree.nil) 4577 (.string) Tree.nil)
  4580 (.struct 1) (.node (.node Tree.nil 4583 (.pointer (.named 416)) Tree.nil) 4584 (.named 416) Tree.nil)))) 4585 (.pointer (.named 416)) (.node
  (.node (.node (.node (.node Tree.nil 4588 (.signature 11) Tree.nil) 4590 (.string) (.node Tree.nil 4591 (.string) Tree.nil)) 4594 (.signature 11)
  (.node (.node Tree.nil 4595 (.string) Tree.nil) 4596 (.pointer (.named 416)) Tree.nil)) 4597 (.string) (.node (.node (.node Tree.nil 4598
  (.string) Tree.nil) 4603 (.named 416) Tree.nil) 4604 (.pointer (.named 416)) (.node (.node Tree.nil 4607 (.signature 11) Tree.nil) 4609 (.string)
  Tree.nil))) 4610 (.string) (.node (.node (.node (.node Tree.nil 4613 (.signature 11) Tree.nil) 4614 (.string) Tree.nil) 4615 (.string) (.node
  (.node Tree.nil 4620 (.named 419) Tree.nil) 4621 (.string) Tree.nil)) 4622 (.string) (.node (.node (.node Tree.nil 4625 (.struct 1) Tree.nil) 4628
  (.pointer (.named 419)) Tree.nil) 4629 (.named 419) (.node (.node Tree.nil 4630 (.pointer (.named 419)) Tree.nil) 4633 (.signature 11)
  Tree.nil)))))) 4635 (.string) (.node (.node (.node (.node (.node (.node (.node Tree.nil 4636 (.string) Tree.nil) 4639 (.signature 11) (.node
  Tree.nil 4640 (.string) Tree.nil)) 4641 (.string) (.node (.node Tree.nil 4643 (.string) Tree.nil) 4644 (.pointer (.named 419)) Tree.nil)) 4645
  (.string) (.node (.node (.node Tree.nil 4646 (.string) Tree.nil) 4648 (.other 10) Tree.nil) 4650 (.string) (.node (.node Tree.nil 4651 (.string)
  Tree.nil) 4658 (.named 419) Tree.nil))) 4659 (.pointer (.named 419)) (.node (.node (.node (.node Tree.nil 4662 (.signature 11) Tree.nil) 4664
  (.string) (.node Tree.nil 4665 (.string) Tree.nil)) 4668 (.signature 11) (.node (.node Tree.nil 4669 (.string) Tree.nil) 4670 (.string) Tree.nil))
  4675 (.named 422) (.node (.node (.node Tree.nil 4676 (.string) Tree.nil) 4677 (.string) Tree.nil) 4680 (.struct 1) (.node (.node Tree.nil 4683
  (.pointer (.named 422)) Tree.nil) 4684 (.named 422) Tree.nil)))) 4685 (.pointer (.named 422)) (.node (.node (.node (.node (.node Tree.nil 4688
  (.signature 11) Tree.nil) 4690 (.string) (.node Tree.nil 4691 (.string) Tree.nil)) 4694 (.signature 11) (.node (.node Tree.nil 4695 (.string)
  Tree.nil) 4696 (.pointer (.named 422)) Tree.nil)) 4697 (.string) (.node (.node (.node Tree.nil 4698 (.string) Tree.nil) 4700 (.other 10) Tree.nil)
  4702 (.string) (.node (.node Tree.nil 4703 (.string) Tree.nil) 4711 (.named 422) Tree.nil))) 4712 (.pointer (.named 422)) (.node (.node (.node
  (.node Tree.nil 4715 (.signature 11) Tree.nil) 4717 (.string) Tree.nil) 4720 (.signature 11) (.node (.node Tree.nil 4721 (.string) Tree.nil) 4725
  (.named 425) Tree.nil)) 4726 (.string) (.node (.node (.node Tree.nil 4727 (.string) Tree.nil) 4730 (.struct 1) Tree.nil) 4733 (.pointer (.named
  425)) (.node (.node Tree.nil 4734 (.named 425) Tree.nil) 4735 (.pointer (.named 425)) Tree.nil))))) 4738 (.signature 11) (.node (.node (.node
  (.node (.node (.node Tree.nil 4740 (.string) Tree.nil) 4743 (.signature 11) (.node Tree.nil 4744 (.string) Tree.nil)) 4745 (.pointer (.named 425))
  (.node (.node Tree.nil 4746 (.string) Tree.nil) 4747 (.string) Tree.nil)) 4749 (.string) (.node (.node (.node Tree.nil 4753 (.named 425) Tree.nil)
  4754 (.pointer (.named 425)) Tree.nil) 4757 (.signature 11) (.node (.node Tree.nil 4759 (.string) Tree.nil) 4762 (.signature 11) Tree.nil))) 4763
  (.string) (.node (.node (.node (.node Tree.nil 4767 (.named 428) Tree.nil) 4768 (.string) Tree.nil) 4769 (.string) (.node (.node Tree.nil 4772
  (.struct 1) Tree.nil) 4775 (.pointer (.named 428)) Tree.nil)) 4776 (.named 428) (.node (.node (.node Tree.nil 4777 (.pointer (.named 428))
  Tree.nil) 4780 (.signature 11) Tree.nil) 4782 (.string) (.node (.node Tree.nil 4785 (.signature 11) Tree.nil) 4786 (.string) Tree.nil)))) 4787
  (.pointer (.named 428)) (.node (.node (.node (.node (.node Tree.nil 4788 (.string) Tree.nil) 4789 (.string) (.node Tree.nil 4791 (.string)
  Tree.nil)) 4792 (.string) (.node (.node Tree.nil 4794 (.string) Tree.nil) 4795 (.string) Tree.nil)) 4799 (.other 10) (.node (.node (.node Tree.nil
  4801 (.string) Tree.nil) 4802 (.string) Tree.nil) 4804 (.string) (.node (.node Tree.nil 4807 (.string) Tree.nil) 4808 (.string) Tree.nil))) 4810
  (.string) (.node (.node (.node (.node Tree.nil 4811 (.string) Tree.nil) 4812 (.other 10) Tree.nil) 4814 (.string) (.node (.node Tree.nil 4815
  (.string) Tree.nil) 4819 (.string) Tree.nil)) 4825 (.named 428) (.node (.node (.node Tree.nil 4826 (.pointer (.named 428)) Tree.nil) 4829
  (.signature 11) Tree.nil) 4831 (.string) (.node (.node Tree.nil 4834 (.signature 11) Tree.nil) 4835 (.string) Tree.nil)))))))))
/-- Constant values of expressions. -/
def valueTable : Tree Const := (.node (.node (.node (.node (.node (.node (.node (.node Tree.nil 3309 (.other) Tree.nil) 3315 (.other) Tree.nil) 3321
  (.other) (.node Tree.nil 3327 (.other) Tree.nil)) 3333 (.other) (.node (.node Tree.nil 3339 (.other) Tree.nil) 3344 (.other) (.node Tree.nil 3350
  (.other) Tree.nil))) 3356 (.other) (.node (.node (.node Tree.nil 3362 (.other) Tree.nil) 3368 (.other) (.node Tree.nil 3370 (.str s27) Tree.nil))
  3375 (.other) (.node (.node Tree.nil 3377 (.str s28) Tree.nil) 3378 (.str s29) (.node Tree.nil 3379 (.str s30) Tree.nil)))) 3384 (.other) (.node
  (.node (.node (.node (.node Tree.nil 3386 (.str s31) Tree.nil) 3387 (.str s32) Tree.nil) 3388 (.str s33) (.node Tree.nil 3393 (.other) Tree.nil))
  3395 (.str s34) (.node (.node Tree.nil 3400 (.other) Tree.nil) 3403 (.str s35) (.node Tree.nil 3409 (.other) Tree.nil))) 3412 (.str s36) (.node
  (.node (.node Tree.nil 3415 (.str s37) Tree.nil) 3418 (.str s38) (.node Tree.nil 3424 (.other) Tree.nil)) 3431 (.other) (.node (.node Tree.nil
  3437 (.other) Tree.nil) 3440 (.str s36) (.node Tree.nil 3446 (.other) Tree.nil))))) 3448 (.str s39) (.node (.node (.node (.node (.node (.node
  Tree.nil 3453 (.other) Tree.nil) 3456 (.str s36) Tree.nil) 3459 (.str s39) (.node Tree.nil 3465 (.other) Tree.nil)) 3467 (.str s40) (.node (.node
  Tree.nil 3472 (.other) Tree.nil) 3475 (.str s41) (.node Tree.nil 3476 (.str s42) Tree.nil))) 3478 (.str s43) (.node (.node (.node Tree.nil 3479
  (.str s44) Tree.nil) 3484 (.other) (.node Tree.nil 3487 (.str s45) Tree.nil)) 3493 (.other) (.node (.node Tree.nil 3496 (.str s46) Tree.nil) 3497
  (.str s31) (.node Tree.nil 3502 (.other) Tree.nil)))) 3505 (.str s47) (.node (.node (.node (.node Tree.nil 3506 (.str s48) Tree.nil) 3512 (.other)
  (.node Tree.nil 3514 (.str s49) Tree.nil)) 3519 (.other) (.node (.node Tree.nil 3521 (.str s50) Tree.nil) 3522 (.str s50) (.node Tree.nil 3525
  (.other) Tree.nil))) 3527 (.str s51) (.node (.node (.node Tree.nil 3528 (.str s51) Tree.nil) 3553 (.str s52) (.node Tree.nil 3568 (.str s53)
  Tree.nil)) 3588 (.str s55) (.node (.node Tree.nil 3589 (.str s56) Tree.nil) 3590 (.str s54) (.node Tree.nil 3605 (.str s57) Tree.nil)))))) 3610
  (.str s59) (.node (.node (.node (.node (.node (.node (.node Tree.nil 3611 (.str s56) Tree.nil) 3612 (.str s58) Tree.nil) 3631 (.str s58) (.node
  Tree.nil 3646 (.str s60) Tree.nil)) 3665 (.str s61) (.node (.node Tree.nil 3679 (.str s62) Tree.nil) 3699 (.other) (.node Tree.nil 3700 (.str s63)
  Tree.nil))) 3703 (.other) (.node (.node (.node Tree.nil 3704 (.str s64) Tree.nil) 3707 (.str s65) (.node Tree.nil 3725 (.str s66) Tree.nil)) 3744
  (.str s67) (.node (.node Tree.nil 3758 (.str s68) Tree.nil) 3777 (.str s69) (.node Tree.nil 3791 (.str s70) Tree.nil)))) 3811 (.str s71) (.node
  (.node (.node (.node Tree.nil 3826 (.str s72) Tree.nil) 3871 (.str s73) (.node Tree.nil 3891 (.str s74) Tree.nil)) 3931 (.str s75) (.node (.node
  Tree.nil 3956 (.other) Tree.nil) 3962 (.other) (.node Tree.nil 3988 (.str s76) Tree.nil))) 4030 (.str s77) (.node (.node (.node Tree.nil 4097
  (.str s78) Tree.nil) 4147 (.str s79) (.node Tree.nil 4191 (.str s80) Tree.nil)) 4230 (.str s81) (.node (.node Tree.nil 4253 (.other) Tree.nil)
  4259 (.other) (.node Tree.nil 4260 (.str s82) Tree.nil))))) 4265 (.str s83) (.node (.node (.node (.node (.node (.node Tree.nil 4280 (.str s84)
  Tree.nil) 4298 (.str s85) Tree.nil) 4312 (.str s8) (.node Tree.nil 4346 (.str s9) Tree.nil)) 4380 (.str s86) (.node (.node Tree.nil 4394 (.str
  s56) Tree.nil) 4423 (.str s87) (.node Tree.nil 4437 (.str s56) Tree.nil))) 4442 (.str s88) (.node (.node (.node Tree.nil 4464 (.str s89) Tree.nil)
  4478 (.str s56) (.node Tree.nil 4483 (.str s88) Tree.nil)) 4507 (.str s39) (.node (.node Tree.nil 4511 (.str s90) Tree.nil) 4525 (.str s90) (.node
  Tree.nil 4546 (.str s91) Tree.nil)))) 4548 (.other) (.node (.node (.node (.node Tree.nil 4551 (.str s39) Tree.nil) 4570 (.str s92) (.node Tree.nil
  4615 (.str s93) Tree.nil)) 4641 (.str s52) (.node (.node Tree.nil 4648 (.other) Tree.nil) 4670 (.str s94) (.node Tree.nil 4700 (.other)
  Tree.nil))) 4703 (.str s95) (.node (.node (.node Tree.nil 4721 (.str s96) Tree.nil) 4763 (.str s97) (.node Tree.nil 4792 (.str s98) Tree.nil))
  4799 (.other) (.node (.node Tree.nil 4808 (.str s52) Tree.nil) 4811 (.str s99) (.node Tree.nil 4835 (.str s97) Tree.nil)))))))
/-- `typeutil.Callee` of call expressions. -/
def calleeTable : Tree Nat := Tree.nil
/-- `Info.Uses`. -/
def usesTable : Tree Nat := (.node (.node (.node (.node (.node (.node (.node (.node (.node Tree.nil 3300 (19) Tree.nil) 3305 (16) Tree.nil) 3309
  (21) (.node Tree.nil 3310 (343) Tree.nil)) 3315 (21) (.node (.node (.node Tree.nil 3316 (346) Tree.nil) 3321 (21) Tree.nil) 3322 (350) (.node
  Tree.nil 3327 (21) Tree.nil))) 3328 (353) (.node (.node (.node (.node Tree.nil 3333 (21) Tree.nil) 3334 (356) Tree.nil) 3339 (21) (.node Tree.nil
  3340 (359) Tree.nil)) 3344 (21) (.node (.node (.node Tree.nil 3345 (362) Tree.nil) 3350 (21) Tree.nil) 3351 (365) (.node Tree.nil 3356 (21)
  Tree.nil)))) 3357 (368) (.node (.node (.node (.node (.node Tree.nil 3362 (21) Tree.nil) 3363 (371) Tree.nil) 3368 (21) (.node Tree.nil 3369 (373)
  Tree.nil)) 3375 (21) (.node (.node (.node Tree.nil 3376 (376) Tree.nil) 3384 (21) Tree.nil) 3385 (379) (.node Tree.nil 3393 (21) Tree.nil))) 3394
  (373) (.node (.node (.node (.node Tree.nil 3400 (21) Tree.nil) 3401 (373) Tree.nil) 3402 (462) (.node Tree.nil 3409 (21) Tree.nil)) 3410 (376)
  (.node (.node (.node Tree.nil 3411 (463) Tree.nil) 3414 (464) Tree.nil) 3417 (465) (.node Tree.nil 3424 (21) Tree.nil))))) 3425 (373) (.node
  (.node (.node (.node (.node (.node Tree.nil 3426 (461) Tree.nil) 3431 (21) Tree.nil) 3432 (373) (.node Tree.nil 3437 (21) Tree.nil)) 3438 (376)
  (.node (.node (.node Tree.nil 3439 (463) Tree.nil) 3446 (21) Tree.nil) 3447 (373) (.node Tree.nil 3453 (21) Tree.nil))) 3454 (376) (.node (.node
  (.node (.node Tree.nil 3455 (463) Tree.nil) 3458 (465) Tree.nil) 3465 (21) (.node Tree.nil 3466 (373) Tree.nil)) 3472 (21) (.node (.node (.node
  Tree.nil 3473 (385) Tree.nil) 3474 (382) Tree.nil) 3484 (21) (.node Tree.nil 3485 (388) Tree.nil)))) 3486 (466) (.node (.node (.node (.node (.node
  Tree.nil 3493 (21) Tree.nil) 3494 (391) Tree.nil) 3495 (23) (.node Tree.nil 3502 (21) Tree.nil)) 3503 (394) (.node (.node (.node Tree.nil 3504
  (382) Tree.nil) 3512 (21) Tree.nil) 3513 (397) (.node Tree.nil 3519 (21) Tree.nil))) 3520 (400) (.node (.node (.node (.node Tree.nil 3525 (21)
  Tree.nil) 3526 (403) Tree.nil) 3533 (23) (.node Tree.nil 3543 (343) Tree.nil)) 3549 (16) (.node (.node Tree.nil 3558 (343) Tree.nil) 3564 (16)
  (.node Tree.nil 3578 (346) Tree.nil)))))) 3584 (16) (.node (.node (.node (.node (.node (.node (.node Tree.nil 3595 (346) Tree.nil) 3601 (16)
  Tree.nil) 3621 (350) (.node Tree.nil 3627 (16) Tree.nil)) 3631 (349) (.node (.node (.node Tree.nil 3636 (350) Tree.nil) 3642 (16) Tree.nil) 3655
  (353) (.node Tree.nil 3661 (16) Tree.nil))) 3669 (353) (.node (.node (.node (.node Tree.nil 3675 (16) Tree.nil) 3689 (356) Tree.nil) 3695 (16)
  (.node Tree.nil 3699 (21) Tree.nil)) 3703 (21) (.node (.node (.node Tree.nil 3715 (356) Tree.nil) 3721 (16) Tree.nil) 3735 (359) (.node Tree.nil
  3740 (16) Tree.nil)))) 3749 (359) (.node (.node (.node (.node (.node Tree.nil 3754 (16) Tree.nil) 3768 (362) Tree.nil) 3773 (16) (.node Tree.nil
  3782 (362) Tree.nil)) 3787 (16) (.node (.node (.node Tree.nil 3801 (365) Tree.nil) 3807 (16) Tree.nil) 3816 (365) (.node Tree.nil 3822 (16)
  Tree.nil))) 3833 (16) (.node (.node (.node (.node Tree.nil 3840 (368) Tree.nil) 3846 (16) Tree.nil) 3850 (481) (.node Tree.nil 3851 (482)
  Tree.nil)) 3853 (481) (.node (.node Tree.nil 3854 (483) Tree.nil) 3861 (368) (.node Tree.nil 3867 (16) Tree.nil))))) 3881 (371) (.node (.node
  (.node (.node (.node (.node Tree.nil 3887 (16) Tree.nil) 3897 (16) Tree.nil) 3904 (373) (.node Tree.nil 3910 (16) Tree.nil)) 3914 (486) (.node
  (.node (.node Tree.nil 3915 (462) Tree.nil) 3921 (373) Tree.nil) 3927 (16) (.node Tree.nil 3939 (16) Tree.nil))) 3946 (376) (.node (.node (.node
  (.node Tree.nil 3952 (16) Tree.nil) 3956 (21) Tree.nil) 3957 (488) (.node Tree.nil 3958 (465) Tree.nil)) 3962 (21) (.node (.node (.node Tree.nil
  3963 (488) Tree.nil) 3964 (464) Tree.nil) 3968 (488) (.node Tree.nil 3969 (463) Tree.nil)))) 3978 (376) (.node (.node (.node (.node (.node
  Tree.nil 3984 (16) Tree.nil) 3996 (16) Tree.nil) 4003 (379) (.node Tree.nil 4009 (16) Tree.nil)) 4013 (490) (.node (.node (.node Tree.nil 4014
  (491) Tree.nil) 4020 (379) Tree.nil) 4026 (16) (.node Tree.nil 4037 (16) Tree.nil))) 4047 (1) (.node (.node (.node (.node Tree.nil 4059 (382)
  Tree.nil) 4063 (16) Tree.nil) 4070 (385) (.node Tree.nil 4076 (16) Tree.nil)) 4080 (493) (.node (.node Tree.nil 4081 (494) Tree.nil) 4087 (385)
  (.node Tree.nil 4093 (16) Tree.nil))))))) 4102 (382) (.node (.node (.node (.node (.node (.node (.node (.node Tree.nil 4104 (383) Tree.nil) 4107
  (1) Tree.nil) 4111 (16) (.node Tree.nil 4113 (384) Tree.nil)) 4120 (388) (.node (.node (.node Tree.nil 4126 (16) Tree.nil) 4130 (496) Tree.nil)
  4131 (466) (.node Tree.nil 4137 (388) Tree.nil))) 4143 (16) (.node (.node (.node (.node Tree.nil 4152 (382) Tree.nil) 4157 (16) Tree.nil) 4164
  (391) (.node Tree.nil 4170 (16) Tree.nil)) 4174 (498) (.node (.node (.node Tree.nil 4175 (499) Tree.nil) 4181 (391) Tree.nil) 4187 (16) (.node
  Tree.nil 4196 (382) Tree.nil)))) 4203 (394) (.node (.node (.node (.node (.node Tree.nil 4209 (16) Tree.nil) 4213 (501) Tree.nil) 4214 (502) (.node
  Tree.nil 4220 (394) Tree.nil)) 4226 (16) (.node (.node (.node Tree.nil 4236 (16) Tree.nil) 4243 (397) Tree.nil) 4249 (16) (.node Tree.nil 4253
  (21) Tree.nil))) 4254 (504) (.node (.node (.node (.node Tree.nil 4255 (462) Tree.nil) 4259 (21) Tree.nil) 4270 (397) (.node Tree.nil 4276 (16)
  Tree.nil)) 4285 (16) (.node (.node Tree.nil 4289 (400) Tree.nil) 4294 (16) (.node Tree.nil 4303 (400) Tree.nil))))) 4308 (16) (.node (.node (.node
  (.node (.node (.node Tree.nil 4317 (16) Tree.nil) 4321 (403) Tree.nil) 4326 (16) (.node Tree.nil 4330 (16) Tree.nil)) 4331 (508) (.node (.node
  (.node Tree.nil 4337 (403) Tree.nil) 4342 (16) Tree.nil) 4352 (16) (.node Tree.nil 4356 (0) Tree.nil))) 4363 (406) (.node (.node (.node (.node
  Tree.nil 4369 (16) Tree.nil) 4373 (510) Tree.nil) 4374 (511) (.node Tree.nil 4377 (510) Tree.nil)) 4378 (512) (.node (.node (.node Tree.nil 4384
  (510) Tree.nil) 4385 (513) Tree.nil) 4388 (510) (.node Tree.nil 4389 (512) Tree.nil)))) 4391 (510) (.node (.node (.node (.node (.node Tree.nil
  4392 (512) Tree.nil) 4399 (510) Tree.nil) 4400 (512) (.node Tree.nil 4406 (406) Tree.nil)) 4412 (16) (.node (.node (.node Tree.nil 4416 (514)
  Tree.nil) 4417 (511) Tree.nil) 4420 (514) (.node Tree.nil 4421 (512) Tree.nil))) 4427 (514) (.node (.node (.node (.node Tree.nil 4428 (513)
  Tree.nil) 4431 (514) Tree.nil) 4432 (512) (.node Tree.nil 4434 (514) Tree.nil)) 4435 (512) (.node (.node Tree.nil 4447 (406) Tree.nil) 4453 (16)
  (.node Tree.nil 4457 (515) Tree.nil)))))) 4458 (511) (.node (.node (.node (.node (.node (.node (.node Tree.nil 4461 (515) Tree.nil) 4462 (512)
  Tree.nil) 4468 (515) (.node Tree.nil 4469 (513) Tree.nil)) 4472 (515) (.node (.node (.node Tree.nil 4473 (512) Tree.nil) 4475 (515) Tree.nil) 4476
  (512) (.node Tree.nil 4493 (410) Tree.nil))) 4499 (16) (.node (.node (.node (.node Tree.nil 4503 (516) Tree.nil) 4504 (23) Tree.nil) 4515 (410)
  (.node Tree.nil 4521 (16) Tree.nil)) 4534 (413) (.node (.node (.node Tree.nil 4541 (16) Tree.nil) 4545 (517) Tree.nil) 4548 (22) (.node Tree.nil
  4550 (517) Tree.nil)))) 4558 (413) (.node (.node (.node (.node (.node Tree.nil 4565 (16) Tree.nil) 4569 (518) Tree.nil) 4577 (16) (.node Tree.nil
  4584 (416) Tree.nil)) 4591 (16) (.node (.node (.node Tree.nil 4595 (520) Tree.nil) 4596 (519) Tree.nil) 4597 (105) (.node Tree.nil 4603 (416)
  Tree.nil))) 4610 (16) (.node (.node (.node (.node Tree.nil 4614 (521) Tree.nil) 4622 (16) Tree.nil) 4629 (419) (.node Tree.nil 4636 (16)
  Tree.nil)) 4643 (523) (.node (.node Tree.nil 4644 (522) Tree.nil) 4645 (105) (.node Tree.nil 4648 (22) Tree.nil))))) 4650 (523) (.node (.node
  (.node (.node (.node (.node Tree.nil 4651 (524) Tree.nil) 4658 (419) Tree.nil) 4665 (16) (.node Tree.nil 4669 (525) Tree.nil)) 4677 (16) (.node
  (.node (.node Tree.nil 4684 (422) Tree.nil) 4691 (16) Tree.nil) 4695 (527) (.node Tree.nil 4696 (526) Tree.nil))) 4697 (105) (.node (.node (.node
  (.node Tree.nil 4700 (22) Tree.nil) 4702 (527) Tree.nil) 4711 (422) (.node Tree.nil 4717 (16) Tree.nil)) 4727 (16) (.node (.node (.node Tree.nil
  4734 (425) Tree.nil) 4740 (16) Tree.nil) 4745 (528) (.node Tree.nil 4746 (105) Tree.nil)))) 4749 (529) (.node (.node (.node (.node (.node Tree.nil
  4753 (425) Tree.nil) 4759 (16) Tree.nil) 4769 (16) (.node Tree.nil 4776 (428) Tree.nil)) 4782 (16) (.node (.node (.node Tree.nil 4787 (530)
  Tree.nil) 4788 (105) Tree.nil) 4795 (16) (.node Tree.nil 4799 (22) Tree.nil))) 4801 (533) (.node (.node (.node (.node Tree.nil 4802 (531)
  Tree.nil) 4804 (533) Tree.nil) 4810 (531) (.node Tree.nil 4814 (534) Tree.nil)) 4815 (532) (.node (.node Tree.nil 4819 (534) Tree.nil) 4825 (428)
  (.node Tree.nil 4831 (16) Tree.nil))))))))
/-- `Info.Selections`. -/
def selectionTable : Tree (GoType × Nat) := (.node (.node (.node (.node (.node (.node Tree.nil 3852 ((.pointer (.named 368), 482)) Tree.nil) 3855
  ((.pointer (.named 368), 483)) Tree.nil) 3916 ((.pointer (.named 373), 462)) (.node Tree.nil 3959 ((.pointer (.named 376), 465)) Tree.nil)) 3965
  ((.pointer (.named 376), 464)) (.node (.node Tree.nil 3970 ((.pointer (.named 376), 463)) Tree.nil) 4015 ((.pointer (.named 379), 491)) (.node
  Tree.nil 4082 ((.pointer (.named 385), 494)) Tree.nil))) 4132 ((.pointer (.named 388), 466)) (.node (.node (.node Tree.nil 4176 ((.pointer (.named
  391), 499)) Tree.nil) 4215 ((.pointer (.named 394), 502)) (.node Tree.nil 4256 ((.pointer (.named 397), 462)) Tree.nil)) 4375 ((.pointer (.named
  406), 511)) (.node (.node Tree.nil 4379 ((.pointer (.named 406), 512)) Tree.nil) 4386 ((.pointer (.named 406), 513)) (.node Tree.nil 4390
  ((.pointer (.named 406), 512)) Tree.nil)))) 4393 ((.pointer (.named 406), 512)) (.node (.node (.node (.node (.node Tree.nil 4401 ((.pointer
  (.named 406), 512)) Tree.nil) 4418 ((.pointer (.named 406), 511)) Tree.nil) 4422 ((.pointer (.named 406), 512)) (.node Tree.nil 4429 ((.pointer
  (.named 406), 513)) Tree.nil)) 4433 ((.pointer (.named 406), 512)) (.node (.node Tree.nil 4436 ((.pointer (.named 406), 512)) Tree.nil) 4459
  ((.pointer (.named 406), 511)) (.node Tree.nil 4463 ((.pointer (.named 406), 512)) Tree.nil))) 4470 ((.pointer (.named 406), 513)) (.node (.node
  (.node Tree.nil 4474 ((.pointer (.named 406), 512)) Tree.nil) 4477 ((.pointer (.named 406), 512)) (.node Tree.nil 4598 ((.pointer (.named 416),
  105)) Tree.nil)) 4646 ((.pointer (.named 419), 105)) (.node (.node Tree.nil 4698 ((.pointer (.named 422), 105)) Tree.nil) 4747 ((.pointer (.named
  425), 105)) (.node Tree.nil 4789 ((.pointer (.named 428), 105)) Tree.nil)))))
/-- Identifiers that are names of imported packages. -/
def pkgNameTable : Tree GoString := Tree.nil
/-- Method sets. -/
def methodSetTable : Tree (List (GoString × Nat)) := (.node (.node (.node (.node (.node (.node Tree.nil 27 ([(s11, 1386)]) Tree.nil) 95 ([(s11,
  20)]) Tree.nil) 1716 ([(s10, 344), (s11, 345)]) (.node Tree.nil 1731 ([(s10, 347), (s11, 348)]) Tree.nil)) 1751 ([(s10, 351), (s11, 352)]) (.node
  (.node Tree.nil 1766 ([(s10, 354), (s11, 355)]) Tree.nil) 1781 ([(s10, 357), (s11, 358)]) (.node Tree.nil 1795 ([(s10, 360), (s11, 361)])
  Tree.nil))) 1796 ([(s10, 360), (s11, 361)]) (.node (.node (.node (.node Tree.nil 1810 ([(s10, 363), (s11, 364)]) Tree.nil) 1811 ([(s10, 363),
  (s11, 364)]) Tree.nil) 1826 ([(s10, 366), (s11, 367)]) (.node Tree.nil 1841 ([(s10, 369), (s11, 370)]) Tree.nil)) 1856 ([(s11, 372)]) (.node
  (.node Tree.nil 1866 ([(s10, 374), (s11, 375)]) Tree.nil) 1881 ([(s10, 377), (s11, 378)]) (.node Tree.nil 1896 ([(s10, 380), (s11, 381)])
  Tree.nil)))) 1926 ([(s10, 386), (s11, 387)]) (.node (.node (.node (.node (.node Tree.nil 1941 ([(s10, 389), (s11, 390)]) Tree.nil) 1956 ([(s10,
  392), (s11, 393)]) Tree.nil) 1971 ([(s10, 395), (s11, 396)]) (.node Tree.nil 1986 ([(s10, 398), (s11, 399)]) Tree.nil)) 2000 ([(s10, 401), (s11,
  402)]) (.node (.node Tree.nil 2001 ([(s10, 401), (s11, 402)]) Tree.nil) 2015 ([(s10, 404), (s11, 405)]) (.node Tree.nil 2016 ([(s10, 404), (s11,
  405)]) Tree.nil))) 2031 ([(s10, 407), (s11, 408), (s20, 409)]) (.node (.node (.node Tree.nil 2051 ([(s10, 411), (s11, 412)]) Tree.nil) 2066
  ([(s10, 414), (s11, 415)]) (.node Tree.nil 2081 ([(s10, 417), (s11, 418)]) Tree.nil)) 2096 ([(s10, 420), (s11, 421)]) (.node (.node Tree.nil 2111
  ([(s10, 423), (s11, 424)]) Tree.nil) 2126 ([(s10, 426), (s11, 427)]) (.node Tree.nil 2141 ([(s10, 429), (s11, 430)]) Tree.nil)))))
/-- Types implementing `error`. -/
def implErrorTable : Tree Unit := (.node (.node (.node (.node (.node (.node Tree.nil 27 (()) Tree.nil) 95 (()) Tree.nil) 1716 (()) (.node Tree.nil
  1731 (()) Tree.nil)) 1751 (()) (.node (.node Tree.nil 1766 (()) Tree.nil) 1781 (()) (.node Tree.nil 1795 (()) Tree.nil))) 1796 (()) (.node (.node
  (.node (.node Tree.nil 1810 (()) Tree.nil) 1811 (()) Tree.nil) 1826 (()) (.node Tree.nil 1841 (()) Tree.nil)) 1856 (()) (.node (.node Tree.nil
  1866 (()) Tree.nil) 1881 (()) (.node Tree.nil 1896 (()) Tree.nil)))) 1926 (()) (.node (.node (.node (.node (.node Tree.nil 1941 (()) Tree.nil)
  1956 (()) Tree.nil) 1971 (()) (.node Tree.nil 1986 (()) Tree.nil)) 2000 (()) (.node (.node Tree.nil 2001 (()) Tree.nil) 2015 (()) (.node Tree.nil
  2016 (()) Tree.nil))) 2031 (()) (.node (.node (.node Tree.nil 2051 (()) Tree.nil) 2066 (()) (.node Tree.nil 2081 (()) Tree.nil)) 2096 (()) (.node
  (.node Tree.nil 2111 (()) Tree.nil) 2126 (()) (.node Tree.nil 2141 (()) Tree.nil)))))
/-- Types implementing `error` with a code. -/
def implCodeTable : Tree Unit := (.node (.node (.node (.node (.node Tree.nil 1716 (()) Tree.nil) 1731 (()) (.node Tree.nil 1751 (()) Tree.nil)) 1766
  (()) (.node (.node Tree.nil 1781 (()) Tree.nil) 1795 (()) (.node Tree.nil 1796 (()) Tree.nil))) 1810 (()) (.node (.node (.node Tree.nil 1811 (())
  Tree.nil) 1826 (()) (.node Tree.nil 1841 (()) Tree.nil)) 1866 (()) (.node (.node Tree.nil 1881 (()) Tree.nil) 1896 (()) (.node Tree.nil 1926 (())
  Tree.nil)))) 1941 (()) (.node (.node (.node (.node Tree.nil 1956 (()) Tree.nil) 1971 (()) (.node Tree.nil 1986 (()) Tree.nil)) 2000 (()) (.node
  (.node Tree.nil 2001 (()) Tree.nil) 2015 (()) (.node Tree.nil 2016 (()) Tree.nil))) 2031 (()) (.node (.node (.node Tree.nil 2051 (()) Tree.nil)
  2066 (()) (.node Tree.nil 2081 (()) Tree.nil)) 2096 (()) (.node (.node Tree.nil 2111 (()) Tree.nil) 2126 (()) (.node Tree.nil 2141 (())
  Tree.nil)))))
/-- Types implementing `error` with a cause. -/
def implCauseTable : Tree Unit := Tree.nil
/-- Signatures: types of parameters, variadic, number of results. -/
def sigTable : Tree (List GoType × Bool × Nat) := (.node (.node Tree.nil 6 (([], false, 1)) Tree.nil) 11 (([], false, 1)) Tree.nil)
/-- Tuples of results. -/
def tupleTable : Tree (List GoType) := Tree.nil
/-- Fields of structs. -/
def structTable : Tree (List (GoString × GoType)) := (.node (.node (.node (.node Tree.nil 1 ([(s23, .string)]) Tree.nil) 2 ([]) (.node Tree.nil 33
  ([(s100, .pointer (.named 382)), (s14, .string), (s101, .string)]) Tree.nil)) 34 ([(s18, .string), (s17, .other 10), (s19, .other 10)]) (.node
  (.node Tree.nil 35 ([(s15, .string), (s102, .string)]) Tree.nil) 36 ([(s3, .string)]) Tree.nil)) 37 ([(s101, .other 8), (s101, .other 8), (s101,
  .other 8)]) (.node (.node (.node Tree.nil 38 ([(s6, .string), (s5, .string), (s4, .string)]) Tree.nil) 39 ([(s100, .named 382), (s103, .named
  383), (s101, .other 8), (s101, .string), (s3, .string), (s104, .named 384)]) (.node Tree.nil 40 ([(s6, .string), (s5, .string)]) Tree.nil)) 41
  ([(s100, .named 382), (s101, .string), (s3, .string)]) (.node (.node Tree.nil 42 ([(s101, .string), (s5, .string), (s101, .string)]) Tree.nil) 43
  ([(s100, .named 382)]) Tree.nil)))
/-- Underlying types of named types. -/
def underlyingTable : Tree GoType := (.node (.node (.node (.node (.node (.node Tree.nil 19 (.interface 5) Tree.nil) 343 (.struct 2) Tree.nil) 346
  (.struct 2) (.node Tree.nil 350 (.struct 2) Tree.nil)) 353 (.struct 2) (.node (.node Tree.nil 356 (.struct 2) Tree.nil) 359 (.struct 2) (.node
  Tree.nil 362 (.struct 2) Tree.nil))) 365 (.struct 2) (.node (.node (.node Tree.nil 368 (.struct 40) Tree.nil) 371 (.struct 2) (.node Tree.nil 373
  (.struct 36) Tree.nil)) 376 (.struct 38) (.node (.node Tree.nil 379 (.struct 42) Tree.nil) 382 (.struct 35) (.node Tree.nil 383 (.struct 37)
  Tree.nil)))) 384 (.struct 2) (.node (.node (.node (.node Tree.nil 385 (.struct 41) Tree.nil) 388 (.struct 39) (.node Tree.nil 391 (.struct 33)
  Tree.nil)) 394 (.struct 43) (.node (.node Tree.nil 397 (.struct 36) Tree.nil) 400 (.string) (.node Tree.nil 403 (.string) Tree.nil))) 406 (.struct
  34) (.node (.node (.node Tree.nil 410 (.struct 2) Tree.nil) 413 (.struct 2) (.node Tree.nil 416 (.struct 1) Tree.nil)) 419 (.struct 1) (.node
  (.node Tree.nil 422 (.struct 1) Tree.nil) 425 (.struct 1) (.node Tree.nil 428 (.struct 1) Tree.nil)))))
/-- Which types implement which interfaces. -/
def implTable : Tree (Tree Unit) := (.node Tree.nil 5 ((.node (.node (.node (.node (.node (.node Tree.nil 27 (()) Tree.nil) 95 (()) Tree.nil) 1716
  (()) (.node Tree.nil 1731 (()) Tree.nil)) 1751 (()) (.node (.node Tree.nil 1766 (()) Tree.nil) 1781 (()) (.node Tree.nil 1795 (()) Tree.nil)))
  1796 (()) (.node (.node (.node (.node Tree.nil 1810 (()) Tree.nil) 1811 (()) Tree.nil) 1826 (()) (.node Tree.nil 1841 (()) Tree.nil)) 1856 (())
  (.node (.node Tree.nil 1866 (()) Tree.nil) 1881 (()) (.node Tree.nil 1896 (()) Tree.nil)))) 1926 (()) (.node (.node (.node (.node (.node Tree.nil
  1941 (()) Tree.nil) 1956 (()) Tree.nil) 1971 (()) (.node Tree.nil 1986 (()) Tree.nil)) 2000 (()) (.node (.node Tree.nil 2001 (()) Tree.nil) 2015
  (()) (.node Tree.nil 2016 (()) Tree.nil))) 2031 (()) (.node (.node (.node Tree.nil 2051 (()) Tree.nil) 2066 (()) (.node Tree.nil 2081 (())
  Tree.nil)) 2096 (()) (.node (.node Tree.nil 2111 (()) Tree.nil) 2126 (()) (.node Tree.nil 2141 (()) Tree.nil)))))) Tree.nil)
/-- Comments at return statements (`ast.NewCommentMap`). -/
def commentTable : Tree (List (List GoString)) := Tree.nil
/-- Function declarations. -/
def declTable : Tree DeclInfo := (.node (.node (.node (.node (.node (.node Tree.nil 0 (⟨s0, true, none, some (CommentText.text [s105, s106, s107,
  s106, s108, s109, s110, s111, s112, s113, s114, s115, s116, s117, s118, s119, s120, s121, s122, s123, s124, s125, s126, s127, s128, s129]), 3536,
  342, []⟩) Tree.nil) 1 (⟨s10, true, some 3544, none, 3556, 344, [⟨3542, s13, (some 23)⟩]⟩) (.node Tree.nil 2 (⟨s11, true, some 3559, none, 3571,
  345, [⟨3557, s13, (some 24)⟩]⟩) Tree.nil)) 3 (⟨s10, true, some 3579, none, 3593, 347, [⟨3577, s13, (some 25)⟩]⟩) (.node (.node Tree.nil 4 (⟨s11,
  true, some 3596, none, 3608, 348, [⟨3594, s13, (some 26)⟩]⟩) Tree.nil) 5 (⟨s10, true, some 3622, none, 3634, 351, [⟨3620, s13, (some 28)⟩]⟩)
  (.node Tree.nil 6 (⟨s11, true, some 3637, none, 3649, 352, [⟨3635, s13, (some 29)⟩]⟩) Tree.nil))) 7 (⟨s10, true, some 3656, none, 3668, 354, []⟩)
  (.node (.node (.node Tree.nil 8 (⟨s11, true, some 3670, none, 3682, 355, []⟩) Tree.nil) 9 (⟨s10, true, some 3690, none, 3713, 357, [⟨3688, s13,
  (some 30)⟩]⟩) (.node Tree.nil 10 (⟨s11, true, some 3716, none, 3728, 358, [⟨3714, s13, (some 31)⟩]⟩) Tree.nil)) 11 (⟨s10, true, some 3735, none,
  3747, 360, [⟨3734, s13, (some 32)⟩]⟩) (.node (.node Tree.nil 12 (⟨s11, true, some 3749, none, 3761, 361, [⟨3748, s13, (some 33)⟩]⟩) Tree.nil) 13
  (⟨s10, true, some 3768, none, 3780, 363, [⟨3767, s13, (some 34)⟩]⟩) Tree.nil))) 14 (⟨s11, true, some 3782, none, 3794, 364, [⟨3781, s13, (some
  35)⟩]⟩) (.node (.node (.node (.node Tree.nil 15 (⟨s10, true, some 3802, none, 3814, 366, [⟨3800, s13, (some 36)⟩]⟩) Tree.nil) 16 (⟨s11, true, some
  3817, none, 3829, 367, [⟨3815, s13, (some 37)⟩]⟩) (.node Tree.nil 17 (⟨s10, true, some 3841, none, 3859, 369, [⟨3839, s13, (some 40)⟩]⟩)
  Tree.nil)) 18 (⟨s11, true, some 3862, none, 3874, 370, [⟨3860, s13, (some 41)⟩]⟩) (.node (.node Tree.nil 19 (⟨s11, true, some 3882, none, 3894,
  372, [⟨3880, s13, (some 42)⟩]⟩) Tree.nil) 20 (⟨s10, true, some 3905, none, 3919, 374, [⟨3903, s13, (some 44)⟩]⟩) Tree.nil)) 21 (⟨s11, true, some
  3922, none, 3934, 375, [⟨3920, s13, (some 45)⟩]⟩) (.node (.node (.node Tree.nil 22 (⟨s10, true, some 3947, none, 3976, 377, [⟨3945, s13, (some
  49)⟩]⟩) Tree.nil) 23 (⟨s11, true, some 3979, none, 3991, 378, [⟨3977, s13, (some 50)⟩]⟩) (.node Tree.nil 24 (⟨s10, true, some 4004, none, 4018,
  380, [⟨4002, s13, (some 54)⟩]⟩) Tree.nil)) 25 (⟨s11, true, some 4021, none, 4033, 381, [⟨4019, s13, (some 55)⟩]⟩) (.node (.node Tree.nil 26 (⟨s10,
  true, some 4071, none, 4085, 386, [⟨4069, s13, (some 65)⟩]⟩) Tree.nil) 27 (⟨s11, true, some 4088, none, 4100, 387, [⟨4086, s13, (some 66)⟩]⟩)
  Tree.nil)))) 28 (⟨s10, true, some 4121, none, 4135, 389, [⟨4119, s13, (some 70)⟩]⟩) (.node (.node (.node (.node (.node Tree.nil 29 (⟨s11, true,
  some 4138, none, 4150, 390, [⟨4136, s13, (some 71)⟩]⟩) Tree.nil) 30 (⟨s10, true, some 4165, none, 4179, 392, [⟨4163, s13, (some 74)⟩]⟩) (.node
  Tree.nil 31 (⟨s11, true, some 4182, none, 4194, 393, [⟨4180, s13, (some 75)⟩]⟩) Tree.nil)) 32 (⟨s10, true, some 4204, none, 4218, 395, [⟨4202,
  s13, (some 76)⟩]⟩) (.node (.node Tree.nil 33 (⟨s11, true, some 4221, none, 4233, 396, [⟨4219, s13, (some 77)⟩]⟩) Tree.nil) 34 (⟨s10, true, some
  4244, none, 4268, 398, [⟨4242, s13, (some 79)⟩]⟩) (.node Tree.nil 35 (⟨s11, true, some 4271, none, 4283, 399, [⟨4269, s13, (some 80)⟩]⟩)
  Tree.nil))) 36 (⟨s10, true, some 4289, none, 4301, 401, [⟨4288, s13, (some 81)⟩]⟩) (.node (.node (.node Tree.nil 37 (⟨s11, true, some 4303, none,
  4315, 402, [⟨4302, s13, (some 82)⟩]⟩) Tree.nil) 38 (⟨s10, true, some 4321, none, 4335, 404, [⟨4320, s13, (some 83)⟩]⟩) (.node Tree.nil 39 (⟨s11,
  true, some 4337, none, 4349, 405, [⟨4336, s13, (some 84)⟩]⟩) Tree.nil)) 40 (⟨s10, true, some 4364, none, 4404, 407, [⟨4362, s13, (some 89)⟩]⟩)
  (.node (.node Tree.nil 41 (⟨s11, true, some 4407, none, 4445, 408, [⟨4405, s13, (some 90)⟩]⟩) Tree.nil) 42 (⟨s20, true, some 4448, none, 4486,
  409, [⟨4446, s13, (some 91)⟩]⟩) Tree.nil))) 43 (⟨s10, true, some 4494, none, 4514, 411, [⟨4492, s13, (some 93)⟩]⟩) (.node (.node (.node (.node
  Tree.nil 44 (⟨s11, true, some 4516, none, 4528, 412, []⟩) Tree.nil) 45 (⟨s10, true, some 4535, none, 4557, 414, []⟩) (.node Tree.nil 46 (⟨s11,
  true, some 4559, none, 4574, 415, []⟩) Tree.nil)) 47 (⟨s10, true, some 4585, none, 4602, 417, [⟨4583, s13, (some 99)⟩]⟩) (.node (.node Tree.nil 48
  (⟨s11, true, some 4604, none, 4619, 418, []⟩) Tree.nil) 49 (⟨s10, true, some 4630, none, 4657, 420, [⟨4628, s13, (some 104)⟩]⟩) Tree.nil)) 50
  (⟨s11, true, some 4659, none, 4674, 421, []⟩) (.node (.node (.node Tree.nil 51 (⟨s10, true, some 4685, some (CommentText.text [s130]), 4710, 423,
  [⟨4683, s13, (some 110)⟩]⟩) Tree.nil) 52 (⟨s11, true, some 4712, none, 4724, 424, []⟩) (.node Tree.nil 53 (⟨s10, true, some 4735, none, 4752, 426,
  [⟨4733, s13, (some 114)⟩]⟩) Tree.nil)) 54 (⟨s11, true, some 4754, none, 4766, 427, []⟩) (.node (.node Tree.nil 55 (⟨s10, true, some 4777, none,
  4824, 429, [⟨4775, s13, (some 118)⟩]⟩) Tree.nil) 56 (⟨s11, true, some 4826, none, 4838, 430, []⟩) Tree.nil)))))
/-- Named interfaces. -/
def interfaceTable : Tree Unit := (.node Tree.nil 19 (()) Tree.nil)
/-- Methods of named types. -/
def methodNameTable : Tree (List GoString) := (.node (.node (.node (.node (.node Tree.nil 343 ([s10, s11]) Tree.nil) 346 ([s10, s11]) (.node
  Tree.nil 350 ([s10, s11]) Tree.nil)) 353 ([s10, s11]) (.node (.node Tree.nil 356 ([s10, s11]) Tree.nil) 359 ([s10, s11]) (.node Tree.nil 362
  ([s10, s11]) Tree.nil))) 365 ([s10, s11]) (.node (.node (.node Tree.nil 368 ([s10, s11]) Tree.nil) 371 ([s11]) (.node Tree.nil 373 ([s10, s11])
  Tree.nil)) 376 ([s10, s11]) (.node (.node Tree.nil 379 ([s10, s11]) Tree.nil) 385 ([s10, s11]) Tree.nil))) 388 ([s10, s11]) (.node (.node (.node
  (.node Tree.nil 391 ([s10, s11]) Tree.nil) 394 ([s10, s11]) (.node Tree.nil 397 ([s10, s11]) Tree.nil)) 400 ([s10, s11]) (.node (.node Tree.nil
  403 ([s10, s11]) Tree.nil) 406 ([s10, s11, s20]) Tree.nil)) 410 ([s10, s11]) (.node (.node (.node Tree.nil 413 ([s10, s11]) Tree.nil) 416 ([s10,
  s11]) (.node Tree.nil 419 ([s10, s11]) Tree.nil)) 422 ([s10, s11]) (.node (.node Tree.nil 425 ([s10, s11]) Tree.nil) 428 ([s10, s11]) Tree.nil))))
/-- Objects of interface methods. -/
def methodObjTable : Tree Nat := Tree.nil
/-- Syntax and types of the package, and the facts exported by the packages it imports. -/
def env : Env where
  funcs := [f0, f1, f2, f3, f4, f5, f6, f7, f8, f9, f10, f11, f12, f13, f14, f15, f16, f17, f18, f19, f20, f21, f22, f23, f24, f25, f26, f27, f28,
  f29, f30, f31, f32, f33, f34, f35, f36, f37, f38, f39, f40, f41, f42, f43, f44, f45, f46, f47, f48, f49, f50, f51, f52, f53, f54, f55, f56]
  objects := objects
  typeOf := fun n => (typeTable.find n).getD (.other 0)
  value := valueTable.find
  callee := calleeTable.find
  uses := usesTable.find
  selection := selectionTable.find
  pkgName := pkgNameTable.find
  funcObj := fun f => ((declTable.find f).map (·.obj)).getD 0
  implError := fun t => has implErrorTable t
  implCode := fun t => has implCodeTable t
  sigResults := fun n => ((sigTable.find n).map (·.2.2)).getD 0
  methodSet := fun t name => ((typeKey t).bind methodSetTable.find).bind fun l => lookup name l
  functions := fun _ => none
  methods := fun _ => []
  comments := fun n => ((commentTable.find n).getD []).map CommentText.text
  isPrint := fun r => 32 ≤ r && r < 127
  facts := noFacts
/-- The package. -/
def package : Package where
  env := env
  decls := ⟨fun f => ((declTable.find f).map (·.name)).getD [], fun f => ((declTable.find f).map (·.exported)).getD false,
    fun f => (declTable.find f).bind (·.recv), fun f => (declTable.find f).bind (·.doc), fun t => has implCauseTable t,
    fun f => ((declTable.find f).map (·.pos)).getD 0⟩
  types := ⟨fun f => (((declTable.find f).bind (·.recv)).bind typeTable.find).getD (.other 0),
    fun f => ((declTable.find f).map (·.recvNames)).getD [], fun o => (interfaceTable.find o).isSome,
    fun o => (methodNameTable.find o).getD []⟩
  funcs := [0, 1, 2, 3, 4, 5, 6, 7, 8, 9, 10, 11, 12, 13, 14, 15, 16, 17, 18, 19, 20, 21, 22, 23, 24, 25, 26, 27, 28, 29, 30, 31, 32, 33, 34, 35,
  36, 37, 38, 39, 40, 41, 42, 43, 44, 45, 46, 47, 48, 49, 50, 51, 52, 53, 54, 55, 56]
  specs := [⟨3541, .named 343, some []⟩, ⟨3576, .named 346, some []⟩, ⟨3619, .named 350, some []⟩, ⟨3654, .named 353, some []⟩, ⟨3687, .named 356,
  some []⟩, ⟨3733, .named 359, some []⟩, ⟨3766, .named 362, some []⟩, ⟨3799, .named 365, some []⟩, ⟨3838, .named 368, some [[s6, s5]]⟩, ⟨3879,
  .named 371, some []⟩, ⟨3902, .named 373, some [[s3]]⟩, ⟨3944, .named 376, some [[s6, s5, s4]]⟩, ⟨4001, .named 379, some [[s101, s5, s101]]⟩,
  ⟨4042, .named 382, some [[s15, s102]]⟩, ⟨4052, .named 383, some [[s101, s101, s101]]⟩, ⟨4057, .named 384, some []⟩, ⟨4068, .named 385, some [[],
  [s101, s3]]⟩, ⟨4118, .named 388, some [[], [], [s101], [s101, s3], []]⟩, ⟨4162, .named 391, some [[], [s14, s101]]⟩, ⟨4201, .named 394, some
  [[]]⟩, ⟨4241, .named 397, some [[s3]]⟩, ⟨4287, .named 400, none⟩, ⟨4319, .named 403, none⟩, ⟨4361, .named 406, some [[s18], [s17, s19]]⟩, ⟨4491,
  .named 410, some []⟩, ⟨4533, .named 413, some []⟩, ⟨4582, .named 416, some [[s23]]⟩, ⟨4627, .named 419, some [[s23]]⟩, ⟨4682, .named 422, some
  [[s23]]⟩, ⟨4732, .named 425, some [[s23]]⟩, ⟨4774, .named 428, some [[s23]]⟩]
  ifaces := []
  methodObj := fun n => (methodObjTable.find n).getD 0
  conv := ⟨fun o => (underlyingTable.find o).getD (.other 0), fun n => ((sigTable.find n).map (·.1)).getD [],
    fun n => ((sigTable.find n).map (·.2.1)).getD false, fun n => (tupleTable.find n).getD [], fun n => (structTable.find n).getD [],
    fun t n => ((implTable.find n).map fun tr => has tr t).getD false⟩
  top := [
    .func 0,
    .node (.other 3541 [.other 3540 [.ident ⟨3537, s53, (some 2)⟩, .other 3539 [.other 3538 []]]]),
    .func 1,
    .func 2,
    .node (.other 3576 [.other 3575 [.ident ⟨3572, s57, (some 3)⟩, .other 3574 [.other 3573 []]]]),
    .func 3,
    .func 4,
    .node (.other 3614 [.valueSpec 3613 [⟨3609, s12, (some 27)⟩] none [.other 3612 [.basicLit 3610, .basicLit 3611]]]),
    .node (.other 3619 [.other 3618 [.ident ⟨3615, s60, (some 4)⟩, .other 3617 [.other 3616 []]]]),
    .func 5,
    .func 6,
    .node (.other 3654 [.other 3653 [.ident ⟨3650, s62, (some 5)⟩, .other 3652 [.other 3651 []]]]),
    .func 7,
    .func 8,
    .node (.other 3687 [.other 3686 [.ident ⟨3683, s66, (some 6)⟩, .other 3685 [.other 3684 []]]]),
    .func 9,
    .func 10,
    .node (.other 3733 [.other 3732 [.ident ⟨3729, s68, (some 7)⟩, .other 3731 [.other 3730 []]]]),
    .func 11,
    .func 12,
    .node (.other 3766 [.other 3765 [.ident ⟨3762, s70, (some 8)⟩, .other 3764 [.other 3763 []]]]),
    .func 13,
    .func 14,
    .node (.other 3799 [.other 3798 [.ident ⟨3795, s72, (some 9)⟩, .other 3797 [.other 3796 []]]]),
    .func 15,
    .func 16,
    .node (.other 3838 [.other 3837 [.ident ⟨3830, s73, (some 10)⟩, .other 3836 [.other 3835 [.other 3834 [.ident ⟨3831, s6, (some 38)⟩, .ident
  ⟨3832, s5, (some 39)⟩, .ident ⟨3833, s16, none⟩]]]]]),
    .func 17,
    .func 18,
    .node (.other 3879 [.other 3878 [.ident ⟨3875, s74, (some 11)⟩, .other 3877 [.other 3876 []]]]),
    .func 19,
    .node (.other 3902 [.other 3901 [.ident ⟨3895, s75, (some 12)⟩, .other 3900 [.other 3899 [.other 3898 [.ident ⟨3896, s3, (some 43)⟩, .ident
  ⟨3897, s16, none⟩]]]]]),
    .func 20,
    .func 21,
    .node (.other 3944 [.other 3943 [.ident ⟨3935, s76, (some 13)⟩, .other 3942 [.other 3941 [.other 3940 [.ident ⟨3936, s6, (some 46)⟩, .ident
  ⟨3937, s5, (some 47)⟩, .ident ⟨3938, s4, (some 48)⟩, .ident ⟨3939, s16, none⟩]]]]]),
    .func 22,
    .func 23,
    .node (.other 4001 [.other 4000 [.ident ⟨3992, s77, (some 14)⟩, .other 3999 [.other 3998 [.other 3997 [.ident ⟨3993, s101, (some 51)⟩, .ident
  ⟨3994, s5, (some 52)⟩, .ident ⟨3995, s101, (some 53)⟩, .ident ⟨3996, s16, none⟩]]]]]),
    .func 24,
    .func 25,
    .node (.other 4042 [.other 4041 [.ident ⟨4034, s100, (some 16)⟩, .other 4040 [.other 4039 [.other 4038 [.ident ⟨4035, s15, (some 56)⟩, .ident
  ⟨4036, s102, (some 57)⟩, .ident ⟨4037, s16, none⟩]]]]]),
    .node (.other 4052 [.other 4051 [.ident ⟨4043, s103, (some 58)⟩, .other 4050 [.other 4049 [.other 4048 [.ident ⟨4044, s101, (some 59)⟩, .ident
  ⟨4045, s101, (some 60)⟩, .ident ⟨4046, s101, (some 61)⟩, .ident ⟨4047, s131, none⟩]]]]]),
    .node (.other 4057 [.other 4056 [.ident ⟨4053, s104, (some 62)⟩, .other 4055 [.other 4054 []]]]),
    .node (.other 4068 [.other 4067 [.ident ⟨4058, s78, (some 15)⟩, .other 4066 [.other 4065 [.other 4060 [.ident ⟨4059, s100, (some 16)⟩], .other
  4064 [.ident ⟨4061, s101, (some 63)⟩, .ident ⟨4062, s3, (some 64)⟩, .ident ⟨4063, s16, none⟩]]]]]),
    .func 26,
    .func 27,
    .node (.other 4118 [.other 4117 [.ident ⟨4101, s79, (some 17)⟩, .other 4116 [.other 4115 [.other 4103 [.ident ⟨4102, s100, (some 16)⟩], .other
  4105 [.ident ⟨4104, s103, (some 58)⟩], .other 4108 [.ident ⟨4106, s101, (some 67)⟩, .ident ⟨4107, s131, none⟩], .other 4112 [.ident ⟨4109, s101,
  (some 68)⟩, .ident ⟨4110, s3, (some 69)⟩, .ident ⟨4111, s16, none⟩], .other 4114 [.ident ⟨4113, s104, (some 62)⟩]]]]]),
    .func 28,
    .func 29,
    .node (.other 4162 [.other 4161 [.ident ⟨4151, s80, (some 18)⟩, .other 4160 [.other 4159 [.other 4154 [.other 4153 [.ident ⟨4152, s100, (some
  16)⟩]], .other 4158 [.ident ⟨4155, s14, (some 72)⟩, .ident ⟨4156, s101, (some 73)⟩, .ident ⟨4157, s16, none⟩]]]]]),
    .func 30,
    .func 31,
    .node (.other 4201 [.other 4200 [.ident ⟨4195, s81, (some 19)⟩, .other 4199 [.other 4198 [.other 4197 [.ident ⟨4196, s100, (some 16)⟩]]]]]),
    .func 32,
    .func 33,
    .node (.other 4241 [.other 4240 [.ident ⟨4234, s84, (some 20)⟩, .other 4239 [.other 4238 [.other 4237 [.ident ⟨4235, s3, (some 78)⟩, .ident
  ⟨4236, s16, none⟩]]]]]),
    .func 34,
    .func 35,
    .node (.other 4287 [.other 4286 [.ident ⟨4284, s8, (some 21)⟩, .ident ⟨4285, s16, none⟩]]),
    .func 36,
    .func 37,
    .node (.other 4319 [.other 4318 [.ident ⟨4316, s9, (some 22)⟩, .ident ⟨4317, s16, none⟩]]),
    .func 38,
    .func 39,
    .node (.other 4361 [.other 4360 [.ident ⟨4350, s88, (some 85)⟩, .other 4359 [.other 4358 [.other 4353 [.ident ⟨4351, s18, (some 86)⟩, .ident
  ⟨4352, s16, none⟩], .other 4357 [.ident ⟨4354, s17, (some 87)⟩, .ident ⟨4355, s19, (some 88)⟩, .ident ⟨4356, s132, none⟩]]]]]),
    .func 40,
    .func 41,
    .func 42,
    .node (.other 4491 [.other 4490 [.ident ⟨4487, s133, (some 92)⟩, .other 4489 [.other 4488 []]]]),
    .func 43,
    .func 44,
    .node (.other 4533 [.other 4532 [.ident ⟨4529, s92, (some 94)⟩, .other 4531 [.other 4530 []]]]),
    .func 45,
    .func 46,
    .node (.other 4582 [.other 4581 [.ident ⟨4575, s93, (some 97)⟩, .other 4580 [.other 4579 [.other 4578 [.ident ⟨4576, s23, (some 98)⟩, .ident
  ⟨4577, s16, none⟩]]]]]),
    .func 47,
    .func 48,
    .node (.other 4627 [.other 4626 [.ident ⟨4620, s94, (some 102)⟩, .other 4625 [.other 4624 [.other 4623 [.ident ⟨4621, s23, (some 103)⟩, .ident
  ⟨4622, s16, none⟩]]]]]),
    .func 49,
    .func 50,
    .node (.other 4682 [.other 4681 [.ident ⟨4675, s96, (some 108)⟩, .other 4680 [.other 4679 [.other 4678 [.ident ⟨4676, s23, (some 109)⟩, .ident
  ⟨4677, s16, none⟩]]]]]),
    .func 51,
    .func 52,
    .node (.other 4732 [.other 4731 [.ident ⟨4725, s134, (some 112)⟩, .other 4730 [.other 4729 [.other 4728 [.ident ⟨4726, s23, (some 113)⟩, .ident
  ⟨4727, s16, none⟩]]]]]),
    .func 53,
    .func 54,
    .node (.other 4774 [.other 4773 [.ident ⟨4767, s135, (some 116)⟩, .other 4772 [.other 4771 [.other 4770 [.ident ⟨4768, s23, (some 117)⟩, .ident
  ⟨4769, s16, none⟩]]]]]),
    .func 55,
    .func 56]
/-- The run, in one order. -/
def result : Except Stop Outcome := runVerify package Check.source true
/-- What is expected.  The comments in the package say (with facts as `object: fact`):
```
errortypes.go:29: AllErrors: ErrorCodes: combined-1-error combined-2-error combined-3-error field-1-error field-2-error field-3-error field-4-error field-5-error field-6-error multiple-1-error multiple-2-error multiple-3-error promoted-1-error promoted-2-error promoted-3-error some-2-error some-3-error some-4-error some-error string-error value-1-error value-2-error
errortypes.go:47: expression is not a valid error: error types must return constant error codes or a single field
errortypes.go:49: expression is not a valid error: error types must return constant error codes or a single field
errortypes.go:51: expression does not define an error code
errortypes.go:65: error code has to be constant value or error code parameter
errortypes.go:75: error code has invalid format: should match .*
errortypes.go:83: expression is not a valid error: error types must return constant error codes or a single field
errortypes.go:89: expression is not a valid error: error types must return constant error codes or a single field
errortypes.go:94: ConstantError: ErrorType{Field:<nil>, Codes:some-error}
errortypes.go:99: ConstantError2: ErrorType{Field:<nil>, Codes:some-2-error}
errortypes.go:106: ConstantError3: ErrorType{Field:<nil>, Codes:some-3-error}
errortypes.go:111: ConstantError4: ErrorType{Field:<nil>, Codes:some-4-error}
errortypes.go:116: MultipleConstantError: ErrorType{Field:<nil>, Codes:multiple-1-error multiple-2-error multiple-3-error}
errortypes.go:130: ValueTypeError: ErrorType{Field:<nil>, Codes:value-1-error}
errortypes.go:135: ValueTypeError2: ErrorType{Field:<nil>, Codes:value-2-error}
errortypes.go:140: type "InvalidError" is an invalid error type: could not find any error codes
errortypes.go:142: error code has invalid format: should match .*
errortypes.go:145: type "InvalidError2" is an invalid error type: could not find any error codes
errortypes.go:147: function "Code" should always return a string constant or a single field
errortypes.go:154: FieldError: ErrorType{Field:{Name:"field", Position:0}, Codes:}
errortypes.go:159: FieldError2: ErrorType{Field:{Name:"field1", Position:0}, Codes:}
errortypes.go:166: only single field allowed: cannot return field "field2" because field .* was returned previously
errortypes.go:168: only single field allowed: cannot return field "field3" because field .* was returned previously
errortypes.go:173: FieldError3: ErrorType{Field:{Name:"field2", Position:1}, Codes:}
errortypes.go:182: PromotedFieldError: ErrorType{Field:{Name:"field", Position:2}, Codes:}
errortypes.go:190: PromotedFieldError2: ErrorType{Field:{Name:"field", Position:4}, Codes:}
errortypes.go:201: PromotedFieldError3: ErrorType{Field:{Name:"errorCode", Position:1}, Codes:}
errortypes.go:209: type "InvalidPromotedFieldError" is an invalid error type: could not find any error codes
errortypes.go:211: returned field "Some" is not a valid error code field \(promoted fields are not supported currently, but might be added in the future\)
errortypes.go:214: CombinedError: ErrorType{Field:{Name:"field", Position:0}, Codes:combined-1-error combined-2-error}
errortypes.go:227: ValidStringError: ErrorType{Field:<nil>, Codes:string-error}
errortypes.go:232: type "InvalidStringError" is an invalid error type: could not find any error codes
errortypes.go:234: function "Code" should always return a string constant or a single field
errortypes.go:237: ModifyingError1: ErrorType{Field:{Name:"code", Position:0}, Codes:replaced-1-error replaced-2-error replaced-3-error}
errortypes.go:247: error code has to be constant value or error code parameter
errortypes.go:257: error code has to be constant value or error code parameter
errortypes.go:267: error code has to be constant value or error code parameter
errortypes.go:272: EmptyStringError: ErrorType{Field:<nil>, Codes:empty-string-error}
errortypes.go:282: NamedReturnError: ErrorType{Field:<nil>, Codes:named-return-error}
errortypes.go:296: NamedReturnError2: ErrorType{Field:{Name:"TheCode", Position:0}, Codes:}
errortypes.go:309: NamedReturnError3: ErrorType{Field:{Name:"TheCode", Position:0}, Codes:some-error}
errortypes.go:326: NamedReturnError4: ErrorType{Field:{Name:"TheCode", Position:0}, Codes:}
errortypes.go:334: error code has invalid format: should match (.*)
errortypes.go:341: ReturnLocalVarError1: ErrorType{Field:{Name:"TheCode", Position:0}, Codes:}
errortypes.go:351: ReturnLocalVarError2: ErrorType{Field:{Name:"TheCode", Position:0}, Codes:other-error some-error}
``` -/
def expected : Check.Expected where
  tags := [{ at_ := 3811, msg := Serum.TagMsg.badConstant (Serum.ConstError.format) },
    { at_ := 3799, msg := Serum.TagMsg.noCodes 365 },
    { at_ := 3856, msg := Serum.TagMsg.notConstantOrField },
    { at_ := 3838, msg := Serum.TagMsg.noCodes 368 },
    { at_ := 3965, msg := Serum.TagMsg.secondField b!"field2" b!"field1" },
    { at_ := 3970, msg := Serum.TagMsg.secondField b!"field3" b!"field1" },
    { at_ := 4218, msg := Serum.TagMsg.notField b!"Some" },
    { at_ := 4201, msg := Serum.TagMsg.noCodes 394 },
    { at_ := 4332, msg := Serum.TagMsg.notConstantOrField },
    { at_ := 4319, msg := Serum.TagMsg.noCodes 403 },
    { at_ := 4395, msg := Serum.TagMsg.assignment (Serum.Msg.notConstant) },
    { at_ := 4438, msg := Serum.TagMsg.assignment (Serum.Msg.notConstant) },
    { at_ := 4479, msg := Serum.TagMsg.assignment (Serum.Msg.notConstant) },
    { at_ := 4703, msg := Serum.TagMsg.badConstant (Serum.ConstError.format) }]
  ifaces := []
  signatures := []
  claims := []
  bodies := [(0, { at_ := 3353, msg := Serum.Msg.invalidErrorType }),
    (0, { at_ := 3359, msg := Serum.Msg.invalidErrorType }),
    (0, { at_ := 3365, msg := Serum.Msg.noErrorCode }),
    (0, { at_ := 3426, msg := Serum.Msg.notConstant }),
    (0, { at_ := 3467, msg := Serum.Msg.badConstant (Serum.ConstError.format) }),
    (0, { at_ := 3509, msg := Serum.Msg.invalidErrorType }),
    (0, { at_ := 3528, msg := Serum.Msg.invalidErrorType })]
  mismatches := []
  conversions := []
  codes := [(342, [b!"some-error", b!"some-2-error", b!"some-3-error", b!"some-4-error", b!"multiple-1-error", b!"multiple-2-error", b!"multiple-3-error", b!"value-1-error", b!"value-2-error", b!"field-1-error", b!"field-2-error", b!"field-3-error", b!"field-4-error", b!"field-5-error", b!"field-6-error", b!"promoted-1-error", b!"promoted-2-error", b!"promoted-3-error", b!"combined-1-error", b!"combined-2-error", b!"combined-3-error", b!"string-error"])]
  ctors := []
  errorTypes := [(343, { codes := [b!"some-error"], field := none }),
    (346, { codes := [b!"some-2-error"], field := none }),
    (350, { codes := [b!"some-3-error"], field := none }),
    (353, { codes := [b!"some-4-error"], field := none }),
    (356, { codes := [b!"multiple-1-error", b!"multiple-2-error", b!"multiple-3-error"], field := none }),
    (359, { codes := [b!"value-1-error"], field := none }),
    (362, { codes := [b!"value-2-error"], field := none }),
    (373, { codes := [], field := some { name := b!"field", position := 0 } }),
    (376, { codes := [], field := some { name := b!"field1", position := 0 } }),
    (379, { codes := [], field := some { name := b!"field2", position := 1 } }),
    (385, { codes := [], field := some { name := b!"field", position := 2 } }),
    (388, { codes := [], field := some { name := b!"field", position := 4 } }),
    (391, { codes := [], field := some { name := b!"errorCode", position := 1 } }),
    (397, { codes := [b!"combined-1-error", b!"combined-2-error"], field := some { name := b!"field", position := 0 } }),
    (400, { codes := [b!"string-error"], field := none }),
    (406, { codes := [b!"replaced-1-error", b!"replaced-2-error", b!"replaced-3-error"], field := some { name := b!"code", position := 0 } }),
    (410, { codes := [b!"empty-string-error"], field := none }),
    (413, { codes := [b!"named-return-error"], field := none }),
    (416, { codes := [], field := some { name := b!"TheCode", position := 0 } }),
    (419, { codes := [b!"some-error"], field := some { name := b!"TheCode", position := 0 } }),
    (422, { codes := [], field := some { name := b!"TheCode", position := 0 } }),
    (425, { codes := [], field := some { name := b!"TheCode", position := 0 } }),
    (428, { codes := [b!"some-error", b!"other-error"], field := some { name := b!"TheCode", position := 0 } })]
  interfaces := []
  objects := 1385

/-- What functions call, and which literals they visit. -/
def graph : Check.Graph :=
  [([], []), ([], []), ([], []), ([], []), ([], []), ([], []), ([], []), ([], []), ([], []), ([], []), ([], []), ([], []), ([], []), ([], []),
  ([], []), ([], []), ([], []), ([], []), ([], []), ([], []), ([], []), ([], []), ([], []), ([], []), ([], []), ([], []), ([], []), ([], []),
  ([], []), ([], []), ([], []), ([], []), ([], []), ([], []), ([], []), ([], []), ([], []), ([], []), ([], []), ([], []), ([], []), ([], []),
  ([], []), ([], []), ([], []), ([], []), ([], []), ([], []), ([], []), ([], []), ([], []), ([], []), ([], []), ([], []), ([], []), ([], []),
  ([], [])]

theorem checked : Check.run package true expected graph = true := by decide +kernel

theorem imports : Check.Tables package.env.facts := tables_noFacts

theorem exported : Check.Tables (Check.factsOf result) := Check.tables checked imports

/-- The facts known before a run: those exported by some run over the imported packages. -/
def Imported (F : Facts) : Prop :=
  F = noFacts

/-- The facts known after a run. -/
def Exports (F : Facts) : Prop := Check.Exports package Imported true F

theorem imports_same (F : Facts) (h : Imported F) : Props.Run.SameFacts package.env.facts F := by
  obtain rfl := h
  exact (.refl _)

theorem exports_same {F : Facts} (h : Exports F) : Props.Run.SameFacts (Check.factsOf result) F :=
  Check.exports_same checked imports imports_same h

/-- **C54**: every run over the package has the expected result. -/
theorem always : Check.Always package Imported true expected :=
  Check.always checked imports imports_same

/-- For the nodes with diagnostics: file, line, and type of node. -/
def nodes : Tree (GoString × Nat × GoString) :=
  (.node (.node (.node (.node (.node Tree.nil 3353 ((b!"errortypes.go", 47, b!"UnaryExpr")) Tree.nil) 3359 ((b!"errortypes.go", 49, b!"UnaryExpr")) Tree.nil) 3365 ((b!"errortypes.go", 51, b!"UnaryExpr")) (.node (.node Tree.nil 3426 ((b!"errortypes.go", 65, b!"Ident")) Tree.nil) 3467 ((b!"errortypes.go", 75, b!"BasicLit")) Tree.nil)) 3509 ((b!"errortypes.go", 83, b!"UnaryExpr")) (.node (.node (.node Tree.nil 3528 ((b!"errortypes.go", 89, b!"CallExpr")) Tree.nil) 3799 ((b!"errortypes.go", 140, b!"GenDecl")) Tree.nil) 3811 ((b!"errortypes.go", 142, b!"BasicLit")) (.node Tree.nil 3838 ((b!"errortypes.go", 145, b!"GenDecl")) Tree.nil))) 3856 ((b!"errortypes.go", 147, b!"BinaryExpr")) (.node (.node (.node (.node Tree.nil 3965 ((b!"errortypes.go", 166, b!"SelectorExpr")) Tree.nil) 3970 ((b!"errortypes.go", 168, b!"SelectorExpr")) Tree.nil) 4201 ((b!"errortypes.go", 209, b!"GenDecl")) (.node (.node Tree.nil 4218 ((b!"errortypes.go", 211, b!"FuncDecl")) Tree.nil) 4319 ((b!"errortypes.go", 232, b!"GenDecl")) Tree.nil)) 4332 ((b!"errortypes.go", 234, b!"CallExpr")) (.node (.node (.node Tree.nil 4395 ((b!"errortypes.go", 247, b!"BinaryExpr")) Tree.nil) 4438 ((b!"errortypes.go", 257, b!"BinaryExpr")) Tree.nil) 4479 ((b!"errortypes.go", 267, b!"BinaryExpr")) (.node Tree.nil 4703 ((b!"errortypes.go", 334, b!"BasicLit")) Tree.nil))))

/-- The names of the objects named in diagnostics other than by identifiers. -/
def objectNames : Tree GoString :=
  (.node (.node (.node Tree.nil 365 (b!"InvalidError") Tree.nil) 368 (b!"InvalidError2") Tree.nil) 394 (b!"InvalidPromotedFieldError") (.node Tree.nil 403 (b!"InvalidStringError") Tree.nil))

def names : Names where
  object := fun o => (objectNames.find o).getD []
  kind := fun n => ((nodes.find n).map fun p => p.2.2).getD []

def place (n : NodeId) : GoString × Nat := ((nodes.find n).map fun p => (p.1, p.2.1)).getD ([], 0)

/-- What is printed: file, line and text. -/
def lines : List Check.Line := [(b!"errortypes.go", 142, b!"error code has invalid format: should match [a-zA-Z][a-zA-Z0-9\\-]*[a-zA-Z0-9]"),
    (b!"errortypes.go", 140, b!"type \"InvalidError\" is an invalid error type: could not find any error codes"),
    (b!"errortypes.go", 147, b!"function \"Code\" should always return a string constant or a single field"),
    (b!"errortypes.go", 145, b!"type \"InvalidError2\" is an invalid error type: could not find any error codes"),
    (b!"errortypes.go", 166, b!"only single field allowed: cannot return field \"field2\" because field \"field1\" was returned previously"),
    (b!"errortypes.go", 168, b!"only single field allowed: cannot return field \"field3\" because field \"field1\" was returned previously"),
    (b!"errortypes.go", 211, b!"returned field \"Some\" is not a valid error code field (promoted fields are not supported currently, but might be added in the future)"),
    (b!"errortypes.go", 209, b!"type \"InvalidPromotedFieldError\" is an invalid error type: could not find any error codes"),
    (b!"errortypes.go", 234, b!"function \"Code\" should always return a string constant or a single field"),
    (b!"errortypes.go", 232, b!"type \"InvalidStringError\" is an invalid error type: could not find any error codes"),
    (b!"errortypes.go", 247, b!"error code has to be constant value or error code parameter"),
    (b!"errortypes.go", 257, b!"error code has to be constant value or error code parameter"),
    (b!"errortypes.go", 267, b!"error code has to be constant value or error code parameter"),
    (b!"errortypes.go", 334, b!"error code has invalid format: should match [a-zA-Z][a-zA-Z0-9\\-]*[a-zA-Z0-9]"),
    (b!"errortypes.go", 47, b!"expression is not a valid error: error types must return constant error codes or a single field"),
    (b!"errortypes.go", 49, b!"expression is not a valid error: error types must return constant error codes or a single field"),
    (b!"errortypes.go", 51, b!"expression does not define an error code"),
    (b!"errortypes.go", 65, b!"error code has to be constant value or error code parameter"),
    (b!"errortypes.go", 75, b!"error code has invalid format: should match [a-zA-Z][a-zA-Z0-9\\-]*[a-zA-Z0-9]"),
    (b!"errortypes.go", 83, b!"expression is not a valid error: error types must return constant error codes or a single field"),
    (b!"errortypes.go", 89, b!"expression is not a valid error: error types must return constant error codes or a single field")]

/-- **C54**: for every run over the package, these lines are printed. -/
theorem prints : Check.Prints package Imported true names place lines :=
  Check.prints always (by decide +kernel)

end Serum.Testdata.errortypes
