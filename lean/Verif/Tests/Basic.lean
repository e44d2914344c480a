import Verif.Tests.Support

/-!
# Tests of the repository, basic

Written by `tools/repotests.py`; see `Verif/Tests/Support.lean`.
-/

namespace Oclint

set_option linter.all false

/-! ## `oclint-rules/test/basic/BitwiseOperatorInConditionalRuleTest.cpp` -/

-- LogicalOr
example : ((overRoots (reportOver bitwiseInConditionalVisit)
    [(.compound [(.ifS none (.binary .lor (.cast .implicit .lvalueToRvalue (.declRef ⟨0, "b".toList⟩)) (.cast .implicit .lvalueToRvalue (.declRef ⟨1, "c".toList⟩))) (.compound [.nullS]) none)])]).isEmpty) = true := by decide +kernel

-- BitwiseOrAsTempVariable
example : ((overRoots (reportOver bitwiseInConditionalVisit)
    [(.compound [(.declS [(.varD ⟨0, "a".toList⟩ (some (.binary .bor (.intLit 1) (.intLit 2))))]), (.ifS none (.binary .eq (.cast .implicit .lvalueToRvalue (.declRef ⟨0, "a".toList⟩)) (.intLit 3)) (.compound [.nullS]) none)])]).isEmpty) = true := by decide +kernel

-- BitwiseOrInIf
example : (reportedAt 0 (overRoots (reportOver bitwiseInConditionalVisit)
    [(.compound [(.ifS none (.binary .bor (.intLit 1) (.intLit 0)) (.compound [.nullS]) none)])])
    [(.binary .bor (.intLit 1) (.intLit 0))]) = true := by decide +kernel

-- BitwiseOrInWhile
example : (reportedAt 0 (overRoots (reportOver bitwiseInConditionalVisit)
    [(.compound [(.whileS (.binary .bor (.intLit 1) (.intLit 0)) (.compound [.nullS]))])])
    [(.binary .bor (.intLit 1) (.intLit 0))]) = true := by decide +kernel

-- BitwiseOrInDoWhile
example : (reportedAt 0 (overRoots (reportOver bitwiseInConditionalVisit)
    [(.compound [(.doS (.compound [.nullS]) (.binary .bor (.intLit 1) (.intLit 0)))])])
    [(.binary .bor (.intLit 1) (.intLit 0))]) = true := by decide +kernel

-- BitwiseOrInConditionalOperator
example : (reportedAt 0 (overRoots (reportOver bitwiseInConditionalVisit)
    [(.compound [(.declS [(.varD ⟨0, "a".toList⟩ (some (.condOp (.binary .bor (.intLit 1) (.intLit 0)) (.cast .implicit .lvalueToRvalue (.declRef ⟨1, "b".toList⟩)) (.cast .implicit .lvalueToRvalue (.declRef ⟨2, "c".toList⟩)))))])])])
    [(.binary .bor (.intLit 1) (.intLit 0))]) = true := by decide +kernel

-- BitwiseAndInIf
example : (reportedAt 0 (overRoots (reportOver bitwiseInConditionalVisit)
    [(.compound [(.ifS none (.binary .band (.intLit 1) (.intLit 0)) (.compound [.nullS]) none)])])
    [(.binary .band (.intLit 1) (.intLit 0))]) = true := by decide +kernel

-- BitwiseAndInWhile
example : (reportedAt 0 (overRoots (reportOver bitwiseInConditionalVisit)
    [(.compound [(.whileS (.binary .band (.intLit 1) (.intLit 0)) (.compound [.nullS]))])])
    [(.binary .band (.intLit 1) (.intLit 0))]) = true := by decide +kernel

-- BitwiseAndInDoWhile
example : (reportedAt 0 (overRoots (reportOver bitwiseInConditionalVisit)
    [(.compound [(.doS (.compound [.nullS]) (.binary .band (.intLit 1) (.intLit 0)))])])
    [(.binary .band (.intLit 1) (.intLit 0))]) = true := by decide +kernel

-- BitwiseAndInConditionalOperator
example : (reportedAt 0 (overRoots (reportOver bitwiseInConditionalVisit)
    [(.compound [(.declS [(.varD ⟨0, "a".toList⟩ (some (.condOp (.binary .band (.intLit 1) (.intLit 0)) (.cast .implicit .lvalueToRvalue (.declRef ⟨1, "b".toList⟩)) (.cast .implicit .lvalueToRvalue (.declRef ⟨2, "c".toList⟩)))))])])])
    [(.binary .band (.intLit 1) (.intLit 0))]) = true := by decide +kernel

-- BitwiseXorInIf
example : (reportedAt 0 (overRoots (reportOver bitwiseInConditionalVisit)
    [(.compound [(.ifS none (.binary .bxor (.intLit 1) (.intLit 0)) (.compound [.nullS]) none)])])
    [(.binary .bxor (.intLit 1) (.intLit 0))]) = true := by decide +kernel

-- BitwiseXorInWhile
example : (reportedAt 0 (overRoots (reportOver bitwiseInConditionalVisit)
    [(.compound [(.whileS (.binary .bxor (.intLit 1) (.intLit 0)) (.compound [.nullS]))])])
    [(.binary .bxor (.intLit 1) (.intLit 0))]) = true := by decide +kernel

-- BitwiseXorInDoWhile
example : (reportedAt 0 (overRoots (reportOver bitwiseInConditionalVisit)
    [(.compound [(.doS (.compound [.nullS]) (.binary .bxor (.intLit 1) (.intLit 0)))])])
    [(.binary .bxor (.intLit 1) (.intLit 0))]) = true := by decide +kernel

-- BitwiseXorInConditionalOperator
example : (reportedAt 0 (overRoots (reportOver bitwiseInConditionalVisit)
    [(.compound [(.declS [(.varD ⟨0, "a".toList⟩ (some (.condOp (.binary .bxor (.intLit 1) (.intLit 0)) (.cast .implicit .lvalueToRvalue (.declRef ⟨1, "b".toList⟩)) (.cast .implicit .lvalueToRvalue (.declRef ⟨2, "c".toList⟩)))))])])])
    [(.binary .bxor (.intLit 1) (.intLit 0))]) = true := by decide +kernel

-- BitwiseNested
example : (reportedAt 0 (overRoots (reportOver bitwiseInConditionalVisit)
    [(.compound [(.ifS none (.binary .land (.binary .bor (.intLit 1) (.intLit 0)) (.intLit 0)) (.compound [.nullS]) none)])])
    [(.binary .land (.binary .bor (.intLit 1) (.intLit 0)) (.intLit 0))]) = true := by decide +kernel

-- BitwiseNestedLeft
example : (reportedAt 0 (overRoots (reportOver bitwiseInConditionalVisit)
    [(.compound [(.ifS none (.binary .lor (.paren (.binary .bor (.intLit 1) (.intLit 0))) (.paren (.binary .lor (.intLit 1) (.intLit 0)))) (.compound [.nullS]) none)])])
    [(.binary .lor (.paren (.binary .bor (.intLit 1) (.intLit 0))) (.paren (.binary .lor (.intLit 1) (.intLit 0))))]) = true := by decide +kernel

-- BitwiseNestedMiddle
example : (reportedAt 0 (overRoots (reportOver bitwiseInConditionalVisit)
    [(.compound [(.ifS none (.binary .band (.paren (.binary .lor (.intLit 1) (.intLit 0))) (.paren (.binary .lor (.intLit 1) (.intLit 0)))) (.compound [.nullS]) none)])])
    [(.binary .band (.paren (.binary .lor (.intLit 1) (.intLit 0))) (.paren (.binary .lor (.intLit 1) (.intLit 0))))]) = true := by decide +kernel

-- BitwiseNestedRight
example : (reportedAt 0 (overRoots (reportOver bitwiseInConditionalVisit)
    [(.compound [(.ifS none (.binary .lor (.paren (.binary .lor (.intLit 1) (.intLit 0))) (.paren (.binary .bor (.intLit 1) (.intLit 0)))) (.compound [.nullS]) none)])])
    [(.binary .lor (.paren (.binary .lor (.intLit 1) (.intLit 0))) (.paren (.binary .bor (.intLit 1) (.intLit 0))))]) = true := by decide +kernel

-- BitwiseNestedDeep
example : (reportedAt 0 (overRoots (reportOver bitwiseInConditionalVisit)
    [(.compound [(.ifS none (.binary .land (.paren (.binary .lor (.paren (.binary .lor (.cast .implicit .lvalueToRvalue (.declRef ⟨0, "a".toList⟩)) (.cast .implicit .lvalueToRvalue (.declRef ⟨1, "b".toList⟩)))) (.cast .implicit .lvalueToRvalue (.declRef ⟨0, "a".toList⟩)))) (.paren (.binary .lor (.paren (.binary .lor (.cast .implicit .lvalueToRvalue (.declRef ⟨1, "b".toList⟩)) (.cast .implicit .lvalueToRvalue (.declRef ⟨1, "b".toList⟩)))) (.paren (.binary .band (.cast .implicit .lvalueToRvalue (.declRef ⟨0, "a".toList⟩)) (.cast .implicit .lvalueToRvalue (.declRef ⟨1, "b".toList⟩))))))) (.compound [.nullS]) none)])])
    [(.binary .land (.paren (.binary .lor (.paren (.binary .lor (.cast .implicit .lvalueToRvalue (.declRef ⟨0, "a".toList⟩)) (.cast .implicit .lvalueToRvalue (.declRef ⟨1, "b".toList⟩)))) (.cast .implicit .lvalueToRvalue (.declRef ⟨0, "a".toList⟩)))) (.paren (.binary .lor (.paren (.binary .lor (.cast .implicit .lvalueToRvalue (.declRef ⟨1, "b".toList⟩)) (.cast .implicit .lvalueToRvalue (.declRef ⟨1, "b".toList⟩)))) (.paren (.binary .band (.cast .implicit .lvalueToRvalue (.declRef ⟨0, "a".toList⟩)) (.cast .implicit .lvalueToRvalue (.declRef ⟨1, "b".toList⟩)))))))]) = true := by decide +kernel

/-! ## `oclint-rules/test/basic/BrokenNullCheckRuleTest.cpp` -/

-- C_CorrectExplicitNullEqCheck
example : ((overRoots (reportOver brokenNullVisit)
    [(.compound [(.ifS none (.binary .land (.binary .ne (.cast .implicit .lvalueToRvalue (.declRef ⟨0, "a".toList⟩)) (.cast .implicit .bitCast (.paren (.cast .cstyle .nullToPointer (.intLit 0))))) (.binary .eq (.cast .implicit .lvalueToRvalue (.member true (.cast .implicit .lvalueToRvalue (.declRef ⟨0, "a".toList⟩)) "foo".toList)) (.intLit 1))) (.compound [.nullS]) none)])]).isEmpty) = true := by decide +kernel

-- C_CorrectEzNullEqCheck
example : ((overRoots (reportOver brokenNullVisit)
    [(.compound [(.ifS none (.binary .land (.cast .implicit .lvalueToRvalue (.declRef ⟨0, "a".toList⟩)) (.binary .eq (.cast .implicit .lvalueToRvalue (.member true (.cast .implicit .lvalueToRvalue (.declRef ⟨0, "a".toList⟩)) "foo".toList)) (.intLit 1))) (.compound [.nullS]) none)])]).isEmpty) = true := by decide +kernel

-- C_BrokenExplicitNullEqCheck
example : (reportedAt 0 (overRoots (reportOver brokenNullVisit)
    [(.compound [(.ifS none (.binary .lor (.binary .ne (.cast .implicit .lvalueToRvalue (.declRef ⟨0, "a".toList⟩)) (.cast .implicit .bitCast (.paren (.cast .cstyle .nullToPointer (.intLit 0))))) (.binary .eq (.cast .implicit .lvalueToRvalue (.member true (.cast .implicit .lvalueToRvalue (.declRef ⟨0, "a".toList⟩)) "foo".toList)) (.intLit 1))) (.compound [.nullS]) none)])])
    [(.binary .lor (.binary .ne (.cast .implicit .lvalueToRvalue (.declRef ⟨0, "a".toList⟩)) (.cast .implicit .bitCast (.paren (.cast .cstyle .nullToPointer (.intLit 0))))) (.binary .eq (.cast .implicit .lvalueToRvalue (.member true (.cast .implicit .lvalueToRvalue (.declRef ⟨0, "a".toList⟩)) "foo".toList)) (.intLit 1)))]) = true := by decide +kernel

-- C_BrokenEzNullEqCheck
example : (reportedAt 0 (overRoots (reportOver brokenNullVisit)
    [(.compound [(.ifS none (.binary .lor (.cast .implicit .lvalueToRvalue (.declRef ⟨0, "a".toList⟩)) (.binary .eq (.cast .implicit .lvalueToRvalue (.member true (.cast .implicit .lvalueToRvalue (.declRef ⟨0, "a".toList⟩)) "foo".toList)) (.intLit 1))) (.compound [.nullS]) none)])])
    [(.binary .lor (.cast .implicit .lvalueToRvalue (.declRef ⟨0, "a".toList⟩)) (.binary .eq (.cast .implicit .lvalueToRvalue (.member true (.cast .implicit .lvalueToRvalue (.declRef ⟨0, "a".toList⟩)) "foo".toList)) (.intLit 1)))]) = true := by decide +kernel

-- C_CorrectExplicitNullNeCheck
example : ((overRoots (reportOver brokenNullVisit)
    [(.compound [(.ifS none (.binary .lor (.binary .eq (.cast .implicit .lvalueToRvalue (.declRef ⟨0, "a".toList⟩)) (.cast .implicit .bitCast (.paren (.cast .cstyle .nullToPointer (.intLit 0))))) (.binary .eq (.cast .implicit .lvalueToRvalue (.member true (.cast .implicit .lvalueToRvalue (.declRef ⟨0, "a".toList⟩)) "foo".toList)) (.intLit 1))) (.compound [.nullS]) none)])]).isEmpty) = true := by decide +kernel

-- C_CorrectEzNullNeCheck
example : ((overRoots (reportOver brokenNullVisit)
    [(.compound [(.ifS none (.binary .lor (.unary .lnot (.cast .implicit .lvalueToRvalue (.declRef ⟨0, "a".toList⟩))) (.binary .eq (.cast .implicit .lvalueToRvalue (.member true (.cast .implicit .lvalueToRvalue (.declRef ⟨0, "a".toList⟩)) "foo".toList)) (.intLit 1))) (.compound [.nullS]) none)])]).isEmpty) = true := by decide +kernel

-- C_BrokenExplicitNullNeCheck
example : (reportedAt 0 (overRoots (reportOver brokenNullVisit)
    [(.compound [(.ifS none (.binary .land (.binary .eq (.cast .implicit .lvalueToRvalue (.declRef ⟨0, "a".toList⟩)) (.cast .implicit .bitCast (.paren (.cast .cstyle .nullToPointer (.intLit 0))))) (.binary .eq (.cast .implicit .lvalueToRvalue (.member true (.cast .implicit .lvalueToRvalue (.declRef ⟨0, "a".toList⟩)) "foo".toList)) (.intLit 1))) (.compound [.nullS]) none)])])
    [(.binary .land (.binary .eq (.cast .implicit .lvalueToRvalue (.declRef ⟨0, "a".toList⟩)) (.cast .implicit .bitCast (.paren (.cast .cstyle .nullToPointer (.intLit 0))))) (.binary .eq (.cast .implicit .lvalueToRvalue (.member true (.cast .implicit .lvalueToRvalue (.declRef ⟨0, "a".toList⟩)) "foo".toList)) (.intLit 1)))]) = true := by decide +kernel

-- C_BrokenEzNullNeCheck
example : (reportedAt 0 (overRoots (reportOver brokenNullVisit)
    [(.compound [(.ifS none (.binary .land (.unary .lnot (.cast .implicit .lvalueToRvalue (.declRef ⟨0, "a".toList⟩))) (.binary .eq (.cast .implicit .lvalueToRvalue (.member true (.cast .implicit .lvalueToRvalue (.declRef ⟨0, "a".toList⟩)) "foo".toList)) (.intLit 1))) (.compound [.nullS]) none)])])
    [(.binary .land (.unary .lnot (.cast .implicit .lvalueToRvalue (.declRef ⟨0, "a".toList⟩))) (.binary .eq (.cast .implicit .lvalueToRvalue (.member true (.cast .implicit .lvalueToRvalue (.declRef ⟨0, "a".toList⟩)) "foo".toList)) (.intLit 1)))]) = true := by decide +kernel

-- Cpp_CorrectExplicitNullEqCheck
example : ((overRoots (reportOver brokenNullVisit)
    [(.compound [(.ifS none (.binary .land (.binary .ne (.cast .implicit .lvalueToRvalue (.declRef ⟨0, "a".toList⟩)) (.cast .implicit .nullToPointer (.intLit 0))) (.call (.member true (.cast .implicit .lvalueToRvalue (.declRef ⟨0, "a".toList⟩)) "bar".toList) [(.cast .implicit .lvalueToRvalue (.declRef ⟨1, "b".toList⟩))])) (.compound [.nullS]) none)])]).isEmpty) = true := by decide +kernel

-- Cpp_CorrectEzNullEqCheck
example : ((overRoots (reportOver brokenNullVisit)
    [(.compound [(.ifS none (.binary .land (.cast .implicit .pointerToBoolean (.cast .implicit .lvalueToRvalue (.declRef ⟨0, "a".toList⟩))) (.call (.member true (.cast .implicit .lvalueToRvalue (.declRef ⟨0, "a".toList⟩)) "bar".toList) [(.cast .implicit .lvalueToRvalue (.declRef ⟨1, "b".toList⟩))])) (.compound [.nullS]) none)])]).isEmpty) = true := by decide +kernel

-- Cpp_BrokenExplicitNullEqCheck
example : (reportedAt 0 (overRoots (reportOver brokenNullVisit)
    [(.compound [(.ifS none (.binary .lor (.binary .ne (.cast .implicit .lvalueToRvalue (.declRef ⟨0, "a".toList⟩)) (.cast .implicit .nullToPointer (.intLit 0))) (.call (.member true (.cast .implicit .lvalueToRvalue (.declRef ⟨0, "a".toList⟩)) "bar".toList) [(.cast .implicit .lvalueToRvalue (.declRef ⟨1, "b".toList⟩))])) (.compound [.nullS]) none)])])
    [(.binary .lor (.binary .ne (.cast .implicit .lvalueToRvalue (.declRef ⟨0, "a".toList⟩)) (.cast .implicit .nullToPointer (.intLit 0))) (.call (.member true (.cast .implicit .lvalueToRvalue (.declRef ⟨0, "a".toList⟩)) "bar".toList) [(.cast .implicit .lvalueToRvalue (.declRef ⟨1, "b".toList⟩))]))]) = true := by decide +kernel

-- Cpp_BrokenEzNullEqCheck
example : (reportedAt 0 (overRoots (reportOver brokenNullVisit)
    [(.compound [(.ifS none (.binary .lor (.cast .implicit .pointerToBoolean (.cast .implicit .lvalueToRvalue (.declRef ⟨0, "a".toList⟩))) (.call (.member true (.cast .implicit .lvalueToRvalue (.declRef ⟨0, "a".toList⟩)) "bar".toList) [(.cast .implicit .lvalueToRvalue (.declRef ⟨1, "b".toList⟩))])) (.compound [.nullS]) none)])])
    [(.binary .lor (.cast .implicit .pointerToBoolean (.cast .implicit .lvalueToRvalue (.declRef ⟨0, "a".toList⟩))) (.call (.member true (.cast .implicit .lvalueToRvalue (.declRef ⟨0, "a".toList⟩)) "bar".toList) [(.cast .implicit .lvalueToRvalue (.declRef ⟨1, "b".toList⟩))]))]) = true := by decide +kernel

-- Cpp_CorrectExplicitNullNeCheck
example : ((overRoots (reportOver brokenNullVisit)
    [(.compound [(.ifS none (.binary .lor (.binary .eq (.cast .implicit .lvalueToRvalue (.declRef ⟨0, "a".toList⟩)) (.cast .implicit .nullToPointer (.intLit 0))) (.call (.member true (.cast .implicit .lvalueToRvalue (.declRef ⟨0, "a".toList⟩)) "bar".toList) [(.cast .implicit .lvalueToRvalue (.declRef ⟨1, "b".toList⟩))])) (.compound [.nullS]) none)])]).isEmpty) = true := by decide +kernel

-- Cpp_CorrectEzNullNeCheck
example : ((overRoots (reportOver brokenNullVisit)
    [(.compound [(.ifS none (.binary .lor (.unary .lnot (.cast .implicit .pointerToBoolean (.cast .implicit .lvalueToRvalue (.declRef ⟨0, "a".toList⟩)))) (.call (.member true (.cast .implicit .lvalueToRvalue (.declRef ⟨0, "a".toList⟩)) "bar".toList) [(.cast .implicit .lvalueToRvalue (.declRef ⟨1, "b".toList⟩))])) (.compound [.nullS]) none)])]).isEmpty) = true := by decide +kernel

-- Cpp_BrokenExplicitNullNeCheck
example : (reportedAt 0 (overRoots (reportOver brokenNullVisit)
    [(.compound [(.ifS none (.binary .land (.binary .eq (.cast .implicit .lvalueToRvalue (.declRef ⟨0, "a".toList⟩)) (.cast .implicit .nullToPointer (.intLit 0))) (.call (.member true (.cast .implicit .lvalueToRvalue (.declRef ⟨0, "a".toList⟩)) "bar".toList) [(.cast .implicit .lvalueToRvalue (.declRef ⟨1, "b".toList⟩))])) (.compound [.nullS]) none)])])
    [(.binary .land (.binary .eq (.cast .implicit .lvalueToRvalue (.declRef ⟨0, "a".toList⟩)) (.cast .implicit .nullToPointer (.intLit 0))) (.call (.member true (.cast .implicit .lvalueToRvalue (.declRef ⟨0, "a".toList⟩)) "bar".toList) [(.cast .implicit .lvalueToRvalue (.declRef ⟨1, "b".toList⟩))]))]) = true := by decide +kernel

-- Cpp_BrokenEzNullNeCheck
example : (reportedAt 0 (overRoots (reportOver brokenNullVisit)
    [(.compound [(.ifS none (.binary .land (.unary .lnot (.cast .implicit .pointerToBoolean (.cast .implicit .lvalueToRvalue (.declRef ⟨0, "a".toList⟩)))) (.call (.member true (.cast .implicit .lvalueToRvalue (.declRef ⟨0, "a".toList⟩)) "bar".toList) [(.cast .implicit .lvalueToRvalue (.declRef ⟨1, "b".toList⟩))])) (.compound [.nullS]) none)])])
    [(.binary .land (.unary .lnot (.cast .implicit .pointerToBoolean (.cast .implicit .lvalueToRvalue (.declRef ⟨0, "a".toList⟩)))) (.call (.member true (.cast .implicit .lvalueToRvalue (.declRef ⟨0, "a".toList⟩)) "bar".toList) [(.cast .implicit .lvalueToRvalue (.declRef ⟨1, "b".toList⟩))]))]) = true := by decide +kernel

-- ObjC_CorrectNullEqCheck
example : ((overRoots (reportOver brokenNilVisit)
    [(.compound [(.returnS (some (.cast .cstyle .other (.intLit 1))))]),
    (.compound [(.ifS none (.message (some "A".toList) (some (.cast .implicit .lvalueToRvalue (.declRef ⟨0, "obj1".toList⟩))) "isEqualTo:".toList [(.cast .implicit .bitCast (.cast .implicit .lvalueToRvalue (.declRef ⟨1, "obj2".toList⟩)))]) (.compound [.nullS]) none)])]).isEmpty) = true := by decide +kernel

-- ObjC_EzButRedundantNullEqCheck
example : ((overRoots (reportOver brokenNilVisit)
    [(.compound [(.returnS (some (.cast .cstyle .other (.intLit 1))))]),
    (.compound [(.ifS none (.binary .land (.cast .implicit .lvalueToRvalue (.declRef ⟨0, "obj1".toList⟩)) (.cast .implicit .other (.message (some "A".toList) (some (.cast .implicit .lvalueToRvalue (.declRef ⟨0, "obj1".toList⟩))) "isEqualTo:".toList [(.cast .implicit .bitCast (.cast .implicit .lvalueToRvalue (.declRef ⟨1, "obj2".toList⟩)))]))) (.compound [.nullS]) none)])]).isEmpty) = true := by decide +kernel

-- ObjC_ExplicitButRedundantNullEqCheck
example : ((overRoots (reportOver brokenNilVisit)
    [(.compound [(.returnS (some (.cast .cstyle .other (.intLit 1))))]),
    (.compound [(.ifS none (.binary .land (.binary .ne (.cast .implicit .lvalueToRvalue (.declRef ⟨0, "obj1".toList⟩)) (.cast .implicit .bitCast (.cast .cstyle .nullToPointer (.intLit 0)))) (.cast .implicit .other (.message (some "A".toList) (some (.cast .implicit .lvalueToRvalue (.declRef ⟨0, "obj1".toList⟩))) "isEqualTo:".toList [(.cast .implicit .bitCast (.cast .implicit .lvalueToRvalue (.declRef ⟨1, "obj2".toList⟩)))]))) (.compound [.nullS]) none)])]).isEmpty) = true := by decide +kernel

-- ObjC_BrokenEzButRedundantNullEqCheck
example : (reportedAt 0 (overRoots (reportOver brokenNilVisit)
    [(.compound [(.returnS (some (.cast .cstyle .other (.intLit 1))))]),
    (.compound [(.ifS none (.binary .lor (.cast .implicit .lvalueToRvalue (.declRef ⟨0, "obj1".toList⟩)) (.cast .implicit .other (.message (some "A".toList) (some (.cast .implicit .lvalueToRvalue (.declRef ⟨0, "obj1".toList⟩))) "isEqualTo:".toList [(.cast .implicit .bitCast (.cast .implicit .lvalueToRvalue (.declRef ⟨1, "obj2".toList⟩)))]))) (.compound [.nullS]) none)])])
    [(.binary .lor (.cast .implicit .lvalueToRvalue (.declRef ⟨0, "obj1".toList⟩)) (.cast .implicit .other (.message (some "A".toList) (some (.cast .implicit .lvalueToRvalue (.declRef ⟨0, "obj1".toList⟩))) "isEqualTo:".toList [(.cast .implicit .bitCast (.cast .implicit .lvalueToRvalue (.declRef ⟨1, "obj2".toList⟩)))])))]) = true := by decide +kernel

-- ObjC_BrokenExplicitButRedundantNullEqCheck
example : (reportedAt 0 (overRoots (reportOver brokenNilVisit)
    [(.compound [(.returnS (some (.cast .cstyle .other (.intLit 1))))]),
    (.compound [(.ifS none (.binary .lor (.binary .ne (.cast .implicit .lvalueToRvalue (.declRef ⟨0, "obj1".toList⟩)) (.cast .implicit .bitCast (.cast .cstyle .nullToPointer (.intLit 0)))) (.cast .implicit .other (.message (some "A".toList) (some (.cast .implicit .lvalueToRvalue (.declRef ⟨0, "obj1".toList⟩))) "isEqualTo:".toList [(.cast .implicit .bitCast (.cast .implicit .lvalueToRvalue (.declRef ⟨1, "obj2".toList⟩)))]))) (.compound [.nullS]) none)])])
    [(.binary .lor (.binary .ne (.cast .implicit .lvalueToRvalue (.declRef ⟨0, "obj1".toList⟩)) (.cast .implicit .bitCast (.cast .cstyle .nullToPointer (.intLit 0)))) (.cast .implicit .other (.message (some "A".toList) (some (.cast .implicit .lvalueToRvalue (.declRef ⟨0, "obj1".toList⟩))) "isEqualTo:".toList [(.cast .implicit .bitCast (.cast .implicit .lvalueToRvalue (.declRef ⟨1, "obj2".toList⟩)))])))]) = true := by decide +kernel

-- ObjC_EzButRedundantNullNeCheck
example : ((overRoots (reportOver brokenNilVisit)
    [(.compound [(.returnS (some (.cast .cstyle .other (.intLit 1))))]),
    (.compound [(.ifS none (.binary .lor (.unary .lnot (.cast .implicit .lvalueToRvalue (.declRef ⟨0, "obj1".toList⟩))) (.unary .lnot (.message (some "A".toList) (some (.cast .implicit .lvalueToRvalue (.declRef ⟨0, "obj1".toList⟩))) "isEqualTo:".toList [(.cast .implicit .bitCast (.cast .implicit .lvalueToRvalue (.declRef ⟨1, "obj2".toList⟩)))]))) (.compound [.nullS]) none)])]).isEmpty) = true := by decide +kernel

-- ObjC_ExplicitButRedundantNullNeCheck
example : ((overRoots (reportOver brokenNilVisit)
    [(.compound [(.returnS (some (.cast .cstyle .other (.intLit 1))))]),
    (.compound [(.ifS none (.binary .lor (.binary .eq (.cast .implicit .lvalueToRvalue (.declRef ⟨0, "obj1".toList⟩)) (.cast .implicit .bitCast (.cast .cstyle .nullToPointer (.intLit 0)))) (.unary .lnot (.message (some "A".toList) (some (.cast .implicit .lvalueToRvalue (.declRef ⟨0, "obj1".toList⟩))) "isEqualTo:".toList [(.cast .implicit .bitCast (.cast .implicit .lvalueToRvalue (.declRef ⟨1, "obj2".toList⟩)))]))) (.compound [.nullS]) none)])]).isEmpty) = true := by decide +kernel

-- ObjC_BrokenEzButRedundantNullNeCheck
example : (reportedAt 0 (overRoots (reportOver brokenNilVisit)
    [(.compound [(.returnS (some (.cast .cstyle .other (.intLit 1))))]),
    (.compound [(.ifS none (.binary .land (.unary .lnot (.cast .implicit .lvalueToRvalue (.declRef ⟨0, "obj1".toList⟩))) (.unary .lnot (.message (some "A".toList) (some (.cast .implicit .lvalueToRvalue (.declRef ⟨0, "obj1".toList⟩))) "isEqualTo:".toList [(.cast .implicit .bitCast (.cast .implicit .lvalueToRvalue (.declRef ⟨1, "obj2".toList⟩)))]))) (.compound [.nullS]) none)])])
    [(.binary .land (.unary .lnot (.cast .implicit .lvalueToRvalue (.declRef ⟨0, "obj1".toList⟩))) (.unary .lnot (.message (some "A".toList) (some (.cast .implicit .lvalueToRvalue (.declRef ⟨0, "obj1".toList⟩))) "isEqualTo:".toList [(.cast .implicit .bitCast (.cast .implicit .lvalueToRvalue (.declRef ⟨1, "obj2".toList⟩)))])))]) = true := by decide +kernel

-- ObjC_BrokenExplicitButRedundantNullNeCheck
example : (reportedAt 0 (overRoots (reportOver brokenNilVisit)
    [(.compound [(.returnS (some (.cast .cstyle .other (.intLit 1))))]),
    (.compound [(.ifS none (.binary .land (.binary .eq (.cast .implicit .lvalueToRvalue (.declRef ⟨0, "obj1".toList⟩)) (.cast .implicit .bitCast (.cast .cstyle .nullToPointer (.intLit 0)))) (.unary .lnot (.message (some "A".toList) (some (.cast .implicit .lvalueToRvalue (.declRef ⟨0, "obj1".toList⟩))) "isEqualTo:".toList [(.cast .implicit .bitCast (.cast .implicit .lvalueToRvalue (.declRef ⟨1, "obj2".toList⟩)))]))) (.compound [.nullS]) none)])])
    [(.binary .land (.binary .eq (.cast .implicit .lvalueToRvalue (.declRef ⟨0, "obj1".toList⟩)) (.cast .implicit .bitCast (.cast .cstyle .nullToPointer (.intLit 0)))) (.unary .lnot (.message (some "A".toList) (some (.cast .implicit .lvalueToRvalue (.declRef ⟨0, "obj1".toList⟩))) "isEqualTo:".toList [(.cast .implicit .bitCast (.cast .implicit .lvalueToRvalue (.declRef ⟨1, "obj2".toList⟩)))])))]) = true := by decide +kernel

-- C_ShouldIgnoreDifferentIdentifers
example : ((overRoots (reportOver brokenNullVisit)
    [(.compound [(.ifS none (.binary .lor (.cast .implicit .lvalueToRvalue (.declRef ⟨0, "b".toList⟩)) (.binary .eq (.cast .implicit .lvalueToRvalue (.member true (.cast .implicit .lvalueToRvalue (.declRef ⟨1, "a".toList⟩)) "foo".toList)) (.intLit 1))) (.compound [.nullS]) none)])]).isEmpty) = true := by decide +kernel

-- ObjC_ShouldIgnoreDifferentIdentifers
example : ((overRoots (reportOver brokenNilVisit)
    [(.compound [(.returnS (some (.cast .cstyle .other (.intLit 1))))]),
    (.compound [(.ifS none (.binary .land (.binary .eq (.cast .implicit .lvalueToRvalue (.declRef ⟨0, "obj1".toList⟩)) (.cast .implicit .bitCast (.cast .cstyle .nullToPointer (.intLit 0)))) (.unary .lnot (.message (some "A".toList) (some (.cast .implicit .lvalueToRvalue (.declRef ⟨1, "obj2".toList⟩))) "isEqualTo:".toList [(.cast .implicit .bitCast (.cast .implicit .lvalueToRvalue (.declRef ⟨0, "obj1".toList⟩)))]))) (.compound [.nullS]) none)])]).isEmpty) = true := by decide +kernel

-- C_NullEqualsNull
example : ((overRoots (reportOver brokenNullVisit)
    [(.compound [(.ifS none (.binary .land (.binary .eq (.paren (.cast .cstyle .nullToPointer (.intLit 0))) (.paren (.cast .cstyle .nullToPointer (.intLit 0)))) (.binary .eq (.cast .implicit .lvalueToRvalue (.member true (.cast .implicit .lvalueToRvalue (.declRef ⟨0, "a".toList⟩)) "foo".toList)) (.intLit 1))) (.compound [.nullS]) none)])]).isEmpty) = true := by decide +kernel

-- Cpp_NullOnTheLeftHandSide
example : (reportedAt 0 (overRoots (reportOver brokenNullVisit)
    [(.compound [(.ifS none (.binary .land (.binary .eq (.cast .implicit .nullToPointer (.intLit 0)) (.cast .implicit .lvalueToRvalue (.declRef ⟨0, "a".toList⟩))) (.call (.member true (.cast .implicit .lvalueToRvalue (.declRef ⟨0, "a".toList⟩)) "bar".toList) [(.cast .implicit .lvalueToRvalue (.declRef ⟨1, "b".toList⟩))])) (.compound [.nullS]) none)])])
    [(.binary .land (.binary .eq (.cast .implicit .nullToPointer (.intLit 0)) (.cast .implicit .lvalueToRvalue (.declRef ⟨0, "a".toList⟩))) (.call (.member true (.cast .implicit .lvalueToRvalue (.declRef ⟨0, "a".toList⟩)) "bar".toList) [(.cast .implicit .lvalueToRvalue (.declRef ⟨1, "b".toList⟩))]))]) = true := by decide +kernel

-- C_MultipleMemberExpr
example : (reportedAt 0 (overRoots (reportOver brokenNullVisit)
    [(.compound [(.ifS none (.binary .lor (.binary .ne (.cast .implicit .lvalueToRvalue (.declRef ⟨0, "a".toList⟩)) (.cast .implicit .bitCast (.paren (.cast .cstyle .nullToPointer (.intLit 0))))) (.paren (.binary .land (.binary .eq (.cast .implicit .lvalueToRvalue (.member true (.cast .implicit .lvalueToRvalue (.declRef ⟨1, "c".toList⟩)) "bar".toList)) (.intLit 0)) (.binary .eq (.cast .implicit .lvalueToRvalue (.member true (.cast .implicit .lvalueToRvalue (.declRef ⟨0, "a".toList⟩)) "foo".toList)) (.intLit 1))))) (.compound [.nullS]) none)])])
    [(.binary .lor (.binary .ne (.cast .implicit .lvalueToRvalue (.declRef ⟨0, "a".toList⟩)) (.cast .implicit .bitCast (.paren (.cast .cstyle .nullToPointer (.intLit 0))))) (.paren (.binary .land (.binary .eq (.cast .implicit .lvalueToRvalue (.member true (.cast .implicit .lvalueToRvalue (.declRef ⟨1, "c".toList⟩)) "bar".toList)) (.intLit 0)) (.binary .eq (.cast .implicit .lvalueToRvalue (.member true (.cast .implicit .lvalueToRvalue (.declRef ⟨0, "a".toList⟩)) "foo".toList)) (.intLit 1)))))]) = true := by decide +kernel

-- ObjC_MultipleMessageExpr
example : (reportedAt 0 (overRoots (reportOver brokenNilVisit)
    [(.compound [(.returnS (some (.cast .cstyle .other (.intLit 1))))]),
    (.compound [(.ifS none (.binary .lor (.binary .ne (.cast .implicit .lvalueToRvalue (.declRef ⟨0, "obj1".toList⟩)) (.cast .implicit .bitCast (.cast .cstyle .nullToPointer (.intLit 0)))) (.paren (.binary .land (.cast .implicit .other (.message (some "A".toList) (some (.cast .implicit .lvalueToRvalue (.declRef ⟨1, "obj2".toList⟩))) "isEqualTo:".toList [(.cast .implicit .bitCast (.cast .implicit .lvalueToRvalue (.declRef ⟨0, "obj1".toList⟩)))])) (.cast .implicit .other (.message (some "A".toList) (some (.cast .implicit .lvalueToRvalue (.declRef ⟨0, "obj1".toList⟩))) "isEqualTo:".toList [(.cast .implicit .bitCast (.cast .implicit .lvalueToRvalue (.declRef ⟨1, "obj2".toList⟩)))]))))) (.compound [.nullS]) none)])])
    [(.binary .lor (.binary .ne (.cast .implicit .lvalueToRvalue (.declRef ⟨0, "obj1".toList⟩)) (.cast .implicit .bitCast (.cast .cstyle .nullToPointer (.intLit 0)))) (.paren (.binary .land (.cast .implicit .other (.message (some "A".toList) (some (.cast .implicit .lvalueToRvalue (.declRef ⟨1, "obj2".toList⟩))) "isEqualTo:".toList [(.cast .implicit .bitCast (.cast .implicit .lvalueToRvalue (.declRef ⟨0, "obj1".toList⟩)))])) (.cast .implicit .other (.message (some "A".toList) (some (.cast .implicit .lvalueToRvalue (.declRef ⟨0, "obj1".toList⟩))) "isEqualTo:".toList [(.cast .implicit .bitCast (.cast .implicit .lvalueToRvalue (.declRef ⟨1, "obj2".toList⟩)))])))))]) = true := by decide +kernel

-- C_BrokenExplicitNullEqCheck_ShouldIgnoreByObjC
example : ((overRoots (reportOver brokenNilVisit)
    [(.compound [(.ifS none (.binary .lor (.binary .ne (.cast .implicit .lvalueToRvalue (.declRef ⟨0, "a".toList⟩)) (.cast .implicit .bitCast (.paren (.cast .cstyle .nullToPointer (.intLit 0))))) (.binary .eq (.cast .implicit .lvalueToRvalue (.member true (.cast .implicit .lvalueToRvalue (.declRef ⟨0, "a".toList⟩)) "foo".toList)) (.intLit 1))) (.compound [.nullS]) none)])]).isEmpty) = true := by decide +kernel

-- Cpp_BrokenExplicitNullEqCheck_ShouldIgnoreByObjC
example : ((overRoots (reportOver brokenNilVisit)
    [(.compound [(.ifS none (.binary .lor (.binary .ne (.cast .implicit .lvalueToRvalue (.declRef ⟨0, "a".toList⟩)) (.cast .implicit .nullToPointer (.intLit 0))) (.call (.member true (.cast .implicit .lvalueToRvalue (.declRef ⟨0, "a".toList⟩)) "bar".toList) [(.cast .implicit .lvalueToRvalue (.declRef ⟨1, "b".toList⟩))])) (.compound [.nullS]) none)])]).isEmpty) = true := by decide +kernel

-- ObjC_BrokenEzButRedundantNullEqCheck_ShouldIgnoreByC
example : ((overRoots (reportOver brokenNullVisit)
    [(.compound [(.returnS (some (.cast .cstyle .other (.intLit 1))))]),
    (.compound [(.ifS none (.binary .lor (.cast .implicit .lvalueToRvalue (.declRef ⟨0, "obj1".toList⟩)) (.cast .implicit .other (.message (some "A".toList) (some (.cast .implicit .lvalueToRvalue (.declRef ⟨0, "obj1".toList⟩))) "isEqualTo:".toList [(.cast .implicit .bitCast (.cast .implicit .lvalueToRvalue (.declRef ⟨1, "obj2".toList⟩)))]))) (.compound [.nullS]) none)])]).isEmpty) = true := by decide +kernel

/-! ## `oclint-rules/test/basic/BrokenOddnessCheckRuleTest.cpp` -/

-- CorrectApproaches
example : ((overRoots (reportOver brokenOddnessVisit)
    [(.compound [(.ifS none (.binary .eq (.paren (.binary .band (.cast .implicit .lvalueToRvalue (.declRef ⟨0, "i".toList⟩)) (.intLit 1))) (.intLit 1)) (.compound [.nullS]) none)])]).isEmpty) = true := by decide +kernel

-- CorrectApproaches
example : ((overRoots (reportOver brokenOddnessVisit)
    [(.compound [(.ifS none (.binary .eq (.binary .rem (.cast .implicit .lvalueToRvalue (.declRef ⟨0, "i".toList⟩)) (.intLit 1)) (.intLit 1)) (.compound [.nullS]) none)])]).isEmpty) = true := by decide +kernel

-- NegativeNumberDoesNotWork
example : (reportedAt 0 (overRoots (reportOver brokenOddnessVisit)
    [(.compound [(.ifS none (.binary .eq (.binary .rem (.cast .implicit .lvalueToRvalue (.declRef ⟨0, "i".toList⟩)) (.intLit 2)) (.intLit 1)) (.compound [.nullS]) none)])])
    [(.binary .eq (.binary .rem (.cast .implicit .lvalueToRvalue (.declRef ⟨0, "i".toList⟩)) (.intLit 2)) (.intLit 1))]) = true := by decide +kernel

-- NegativeNumberDoesNotWorkReverse
example : (reportedAt 0 (overRoots (reportOver brokenOddnessVisit)
    [(.compound [(.ifS none (.binary .eq (.intLit 1) (.binary .rem (.cast .implicit .lvalueToRvalue (.declRef ⟨0, "i".toList⟩)) (.intLit 2))) (.compound [.nullS]) none)])])
    [(.binary .eq (.intLit 1) (.binary .rem (.cast .implicit .lvalueToRvalue (.declRef ⟨0, "i".toList⟩)) (.intLit 2)))]) = true := by decide +kernel

-- Method
example : (reportedAt 0 (overRoots (reportOver brokenOddnessVisit)
    [(.compound [(.ifS none (.binary .eq (.intLit 1) (.binary .rem (.call (.cast .implicit .other (.declRef ⟨0, "a".toList⟩)) []) (.intLit 2))) (.compound [.nullS]) none)])])
    [(.binary .eq (.intLit 1) (.binary .rem (.call (.cast .implicit .other (.declRef ⟨0, "a".toList⟩)) []) (.intLit 2)))]) = true := by decide +kernel

/-! ## `oclint-rules/test/basic/CollapsibleIfStatementsRuleTest.cpp` -/

-- InterveningStatementAboveNestedIfStmt
example : ((overRoots (reportOver collapsibleIfVisit)
    [(.compound [(.ifS none (.intLit 1) (.compound [(.declS [(.varD ⟨0, "i".toList⟩ (some (.intLit 1)))]), (.ifS none (.intLit 0) (.compound []) none)]) none)])]).isEmpty) = true := by decide +kernel

-- InterveningStatementBelowNestedIfStmt
example : ((overRoots (reportOver collapsibleIfVisit)
    [(.compound [(.ifS none (.intLit 1) (.compound [(.ifS none (.intLit 0) (.compound []) none), (.declS [(.varD ⟨0, "i".toList⟩ (some (.intLit 1)))])]) none)])]).isEmpty) = true := by decide +kernel

-- IfThenIsIf
example : (reportedAt 0 (overRoots (reportOver collapsibleIfVisit)
    [(.compound [(.ifS none (.intLit 1) (.ifS none (.intLit 0) (.compound []) none) none)])])
    [(.ifS none (.intLit 1) (.ifS none (.intLit 0) (.compound []) none) none)]) = true := by decide +kernel

-- IfThenIsCompoundContainsOnlyIf
example : (reportedAt 0 (overRoots (reportOver collapsibleIfVisit)
    [(.compound [(.ifS none (.intLit 1) (.compound [(.ifS none (.intLit 0) (.compound []) none)]) none)])])
    [(.ifS none (.intLit 1) (.compound [(.ifS none (.intLit 0) (.compound []) none)]) none)]) = true := by decide +kernel

-- BothOuterAndInnerIfHasElseExistence
example : ((overRoots (reportOver collapsibleIfVisit)
    [(.compound [(.ifS none (.intLit 1) (.compound [(.ifS none (.intLit 0) (.compound []) (some (.compound [])))]) (some (.compound [])))])]).isEmpty) = true := by decide +kernel

-- OuterIfHasElseInnerDoesNot
example : ((overRoots (reportOver collapsibleIfVisit)
    [(.compound [(.ifS none (.intLit 1) (.compound [(.ifS none (.intLit 0) (.compound []) none)]) (some (.compound [])))])]).isEmpty) = true := by decide +kernel

-- OuterIfHasNoElseInnerDoes
example : ((overRoots (reportOver collapsibleIfVisit)
    [(.compound [(.ifS none (.intLit 1) (.compound [(.ifS none (.intLit 0) (.compound []) (some (.compound [])))]) none)])]).isEmpty) = true := by decide +kernel

-- OuterIfHasElseIf
example : ((overRoots (reportOver collapsibleIfVisit)
    [(.compound [(.ifS none (.intLit 1) (.compound [(.ifS none (.intLit 0) (.compound []) (some (.compound [])))]) (some (.ifS none (.intLit 1) (.compound []) none)))])]).isEmpty) = true := by decide +kernel

-- ElseIfCanBeCollapsed
example : (reportedAt 0 (overRoots (reportOver collapsibleIfVisit)
    [(.compound [(.ifS none (.intLit 1) (.compound []) (some (.ifS none (.intLit 1) (.compound [(.ifS none (.intLit 0) (.compound []) none)]) none)))])])
    [(.ifS none (.intLit 1) (.compound [(.ifS none (.intLit 0) (.compound []) none)]) none)]) = true := by decide +kernel

-- ElseIfHasElseAndNestedIfHasElse
example : ((overRoots (reportOver collapsibleIfVisit)
    [(.compound [(.ifS none (.intLit 1) (.compound []) (some (.ifS none (.intLit 1) (.compound [(.ifS none (.intLit 0) (.compound []) (some (.compound [])))]) (some (.compound [])))))])]).isEmpty) = true := by decide +kernel

/-! ## `oclint-rules/test/basic/ConstantConditionalOperatorRuleTest.cpp` -/

-- GoodConditionExpression
example : ((overRoots (reportOver (constantConditionalVisit testEvaluate))
    [(.compound [(.declS [(.varD ⟨0, "a".toList⟩ (some (.condOp (.binary .eq (.cast .implicit .lvalueToRvalue (.declRef ⟨1, "b".toList⟩)) (.cast .implicit .lvalueToRvalue (.declRef ⟨2, "c".toList⟩))) (.intLit 1) (.intLit 0))))])])]).isEmpty) = true := by decide +kernel

-- testCompareTwoKnownBoolValuesAlwaysBeTrue
example : (reportedAt 0 (overRoots (reportOver (constantConditionalVisit testEvaluate))
    [(.compound [(.declS [(.varD ⟨0, "a".toList⟩ (some (.condOp (.binary .eq (.intLit 1) (.intLit 1)) (.intLit 1) (.intLit 0))))])])])
    [(.binary .eq (.intLit 1) (.intLit 1))]) = true := by decide +kernel

/-! ## `oclint-rules/test/basic/ConstantIfExpressionRuleTest.cpp` -/

-- GoodConditionExpression
example : ((overRoots (reportOver (constantIfVisit testEvaluate))
    [(.compound [(.ifS none (.binary .eq (.cast .implicit .lvalueToRvalue (.declRef ⟨0, "b".toList⟩)) (.cast .implicit .lvalueToRvalue (.declRef ⟨1, "c".toList⟩))) (.compound [.nullS]) none)])]).isEmpty) = true := by decide +kernel

-- testCompareTwoKnownBoolValuesAlwaysBeTrue
example : (reportedAt 0 (overRoots (reportOver (constantIfVisit testEvaluate))
    [(.compound [(.ifS none (.binary .eq (.intLit 1) (.intLit 1)) (.compound [.nullS]) none)])])
    [(.binary .eq (.intLit 1) (.intLit 1))]) = true := by decide +kernel

-- testCompareTwoKnownBoolValuesAlwaysBeFalse
example : (reportedAt 0 (overRoots (reportOver (constantIfVisit testEvaluate))
    [(.compound [(.ifS none (.binary .eq (.intLit 1) (.intLit 0)) (.compound [.nullS]) none)])])
    [(.binary .eq (.intLit 1) (.intLit 0))]) = true := by decide +kernel

-- testIntegerAlwaysConstant
example : (reportedAt 0 (overRoots (reportOver (constantIfVisit testEvaluate))
    [(.compound [(.ifS none (.intLit 1) (.compound [.nullS]) none)])])
    [(.intLit 1)]) = true := by decide +kernel

-- testFloatAlwaysConstant
example : (reportedAt 0 (overRoots (reportOver (constantIfVisit testEvaluate))
    [(.compound [(.ifS none (.floatLit 246293) (.compound [.nullS]) none)])])
    [(.floatLit 246293)]) = true := by decide +kernel

-- testComplexConstantComparison
example : (reportedAt 0 (overRoots (reportOver (constantIfVisit testEvaluate))
    [(.compound [(.ifS none (.condOp (.intLit 1) (.intLit 0) (.intLit 1)) (.compound [.nullS]) none)])])
    [(.condOp (.intLit 1) (.intLit 0) (.intLit 1))]) = true := by decide +kernel

-- testOnlyEvaluateTheNecessaryCondition
example : (reportedAt 0 (overRoots (reportOver (constantIfVisit testEvaluate))
    [(.compound [(.returnS (some (.intLit 1)))]),
    (.compound [(.ifS none (.condOp (.intLit 1) (.intLit 0) (.call (.cast .implicit .other (.declRef ⟨0, "foo".toList⟩)) [])) (.compound [.nullS]) none)])])
    [(.condOp (.intLit 1) (.intLit 0) (.call (.cast .implicit .other (.declRef ⟨0, "foo".toList⟩)) []))]) = true := by decide +kernel

/-! ## `oclint-rules/test/basic/DeadCodeRuleTest.cpp` -/

-- CleanCode
example : ((overRoots (reportOver deadCodeVisit)
    [(.compound [(.declS [(.varD ⟨0, "b".toList⟩ none)])])]).isEmpty) = true := by decide +kernel

-- CodeAfterReturn
example : (reportedAll (overRoots (reportOver deadCodeVisit)
    [(.compound [(.returnS none), (.declS [(.varD ⟨0, "b".toList⟩ none)])])])
    [[(.declS [(.varD ⟨0, "b".toList⟩ none)])]]) = true := by decide +kernel

-- CodeAfterGoto
example : (reportedAll (overRoots (reportOver deadCodeVisit)
    [(.compound [(.gotoS []), (.declS [(.varD ⟨0, "b".toList⟩ none)]), (.labelS "end".toList (.returnS none))])])
    [[(.declS [(.varD ⟨0, "b".toList⟩ none)])]]) = true := by decide +kernel

-- CodeAfterCXXThrow
example : (reportedAll (overRoots (reportOver deadCodeVisit)
    [(.compound [(.throwE (some (.intLit 0))), (.declS [(.varD ⟨0, "b".toList⟩ none)])])])
    [[(.declS [(.varD ⟨0, "b".toList⟩ none)])]]) = true := by decide +kernel

-- CodeAfterObjCThrow
example : (reportedAll (overRoots (reportOver deadCodeVisit)
    [(.compound [(.declS [(.varD ⟨0, "ex".toList⟩ none)]), (.atThrow (some (.cast .implicit .lvalueToRvalue (.declRef ⟨0, "ex".toList⟩)))), (.declS [(.varD ⟨1, "b".toList⟩ none)])])])
    [[(.declS [(.varD ⟨1, "b".toList⟩ none)])]]) = true := by decide +kernel

-- CodeAfterBreakInWhileLoop
example : (reportedAll (overRoots (reportOver deadCodeVisit)
    [(.compound [(.whileS (.intLit 1) (.compound [.breakS, (.declS [(.varD ⟨0, "b".toList⟩ none)])]))])])
    [[(.declS [(.varD ⟨0, "b".toList⟩ none)])]]) = true := by decide +kernel

-- CodeAfterContinueInForLoop
example : (reportedAll (overRoots (reportOver deadCodeVisit)
    [(.compound [(.forS none none none (.compound [.continueS, (.declS [(.varD ⟨0, "b".toList⟩ none)])]))])])
    [[(.declS [(.varD ⟨0, "b".toList⟩ none)])]]) = true := by decide +kernel

-- CodeAfterBreakInDoLoop
example : (reportedAll (overRoots (reportOver deadCodeVisit)
    [(.compound [(.doS (.compound [.breakS, (.declS [(.varD ⟨0, "b".toList⟩ none)])]) (.intLit 1))])])
    [[(.declS [(.varD ⟨0, "b".toList⟩ none)])]]) = true := by decide +kernel

-- CodeAfterContinueInForObjCForEachLoop
example : (reportedAll (overRoots (reportOver deadCodeVisit)
    [(.compound [(.declS [(.varD ⟨0, "collection".toList⟩ none)]), (.forIn (.declS [(.varD ⟨1, "it".toList⟩ none)]) (.cast .implicit .lvalueToRvalue (.declRef ⟨0, "collection".toList⟩)) (.compound [.continueS, (.declS [(.varD ⟨2, "b".toList⟩ none)])]))])])
    [[(.declS [(.varD ⟨2, "b".toList⟩ none)])]]) = true := by decide +kernel

-- ReturnFollowedByCaseLabel
example : ((overRoots (reportOver deadCodeVisit)
    [(.compound [(.switchS false (.cast .implicit .lvalueToRvalue (.declRef ⟨0, "i".toList⟩)) (.compound [(.caseS (.otherE [(.intLit 1)]) .breakS), (.caseS (.otherE [(.intLit 2)]) (.binary .assign (.declRef ⟨1, "j".toList⟩) (.intLit 1))), (.returnS none), (.caseS (.otherE [(.intLit 3)]) (.returnS none)), (.defaultS (.returnS none))]))])]).isEmpty) = true := by decide +kernel

-- ReturnFollowedByDefault
example : ((overRoots (reportOver deadCodeVisit)
    [(.compound [(.switchS false (.cast .implicit .lvalueToRvalue (.declRef ⟨0, "i".toList⟩)) (.compound [(.caseS (.otherE [(.intLit 1)]) .breakS), (.caseS (.otherE [(.intLit 2)]) (.returnS none)), (.caseS (.otherE [(.intLit 3)]) (.binary .assign (.declRef ⟨1, "j".toList⟩) (.intLit 1))), (.returnS none), (.defaultS (.returnS none))]))])]).isEmpty) = true := by decide +kernel

-- BreakFollowedByCaseLabel
example : ((overRoots (reportOver deadCodeVisit)
    [(.compound [(.switchS false (.cast .implicit .lvalueToRvalue (.declRef ⟨0, "i".toList⟩)) (.compound [(.caseS (.otherE [(.intLit 1)]) .breakS), (.caseS (.otherE [(.intLit 2)]) (.binary .assign (.declRef ⟨1, "j".toList⟩) (.intLit 1))), .breakS, (.caseS (.otherE [(.intLit 3)]) (.returnS none)), (.defaultS (.returnS none))]))])]).isEmpty) = true := by decide +kernel

-- BreakFollowedByStmt
example : (reportedAll (overRoots (reportOver deadCodeVisit)
    [(.compound [(.switchS false (.cast .implicit .lvalueToRvalue (.declRef ⟨0, "c".toList⟩)) (.compound [(.caseS (.otherE [(.intLit 0)]) .breakS), (.call (.cast .implicit .other (.declRef ⟨1, "f".toList⟩)) [(.intLit 0)]), (.defaultS .breakS)]))])])
    [[(.call (.cast .implicit .other (.declRef ⟨1, "f".toList⟩)) [(.intLit 0)])]]) = true := by decide +kernel

-- ReturnFollowedBy2Stmt
example : ((overRoots (reportOver deadCodeVisit)
    [(.compound [(.switchS false (.cast .implicit .lvalueToRvalue (.declRef ⟨0, "c".toList⟩)) (.compound [(.caseS (.otherE [(.intLit 0)]) (.call (.cast .implicit .other (.declRef ⟨1, "f".toList⟩)) [(.intLit 1)])), (.returnS none), (.defaultS (.call (.cast .implicit .other (.declRef ⟨1, "f".toList⟩)) [(.intLit 1)])), .breakS]))])]).isEmpty) = true := by decide +kernel

-- ReturnFollowedByStatementsInForStmt
example : (reportedAll (overRoots (reportOver deadCodeVisit)
    [(.compound [(.forS none none none (.compound [(.returnS none), (.declS [(.varD ⟨0, "b".toList⟩ none)])]))])])
    [[(.declS [(.varD ⟨0, "b".toList⟩ none)])]]) = true := by decide +kernel

-- ReturnFollowedByLabelStatements
example : ((overRoots (reportOver deadCodeVisit)
    [(.compound [(.ifS none (.binary .eq (.cast .implicit .lvalueToRvalue (.declRef ⟨0, "var".toList⟩)) (.intLit 42)) (.gotoS []) none), (.returnS none), (.labelS "end".toList (.call (.cast .implicit .other (.declRef ⟨1, "f".toList⟩)) [(.intLit 0)]))])]).isEmpty) = true := by decide +kernel

-- ReturnInSubBlock
example : (reportedAll (overRoots (reportOver deadCodeVisit)
    [(.compound [(.compound [(.returnS none)]), (.call (.cast .implicit .other (.declRef ⟨0, "f".toList⟩)) [])])])
    [[(.call (.cast .implicit .other (.declRef ⟨0, "f".toList⟩)) [])]]) = true := by decide +kernel

-- ReturnInIfNoElseFollowed
example : ((overRoots (reportOver deadCodeVisit)
    [(.compound [(.ifS none (.cast .implicit .lvalueToRvalue (.declRef ⟨0, "i".toList⟩)) (.compound [(.returnS none)]) none), (.call (.cast .implicit .other (.declRef ⟨1, "f".toList⟩)) [(.intLit 1)])])]).isEmpty) = true := by decide +kernel

-- ReturnInIfNotInElseFollowed
example : ((overRoots (reportOver deadCodeVisit)
    [(.compound [(.ifS none (.cast .implicit .lvalueToRvalue (.declRef ⟨0, "i".toList⟩)) (.compound [(.returnS none)]) (some .nullS)), (.call (.cast .implicit .other (.declRef ⟨1, "f".toList⟩)) [(.intLit 1)])])]).isEmpty) = true := by decide +kernel

-- ReturnInIfElseFollowed
example : (reportedAll (overRoots (reportOver deadCodeVisit)
    [(.compound [(.ifS none (.cast .implicit .lvalueToRvalue (.declRef ⟨0, "i".toList⟩)) (.compound [(.returnS none)]) (some (.compound [(.returnS none)]))), (.call (.cast .implicit .other (.declRef ⟨1, "f".toList⟩)) [(.intLit 1)])])])
    [[(.call (.cast .implicit .other (.declRef ⟨1, "f".toList⟩)) [(.intLit 1)])]]) = true := by decide +kernel

-- NotSupported
example : (reportedAll (overRoots (reportOver deadCodeVisit)
    [(.compound [(.ifS none (.cast .implicit .lvalueToRvalue (.declRef ⟨0, "i".toList⟩)) (.compound [(.returnS none)]) (some (.compound [(.returnS none)]))), (.call (.cast .implicit .other (.declRef ⟨1, "f".toList⟩)) [(.intLit 1)])])])
    [[(.call (.cast .implicit .other (.declRef ⟨1, "f".toList⟩)) [(.intLit 1)])]]) = true := by decide +kernel

-- NotSupported
example : ((overRoots (reportOver deadCodeVisit)
    [(.compound [(.cxxTry (.compound [(.returnS none)]) [(.cxxCatch (some (.varD ⟨0, "".toList⟩ none)) (.compound [(.throwE none)]))]), (.declS [(.varD ⟨1, "b".toList⟩ none)])])]).isEmpty) = true := by decide +kernel

/-! ## `oclint-rules/test/basic/DoubleNegativeRuleTest.cpp` -/

-- GoodNegative
example : ((overRoots (reportOver doubleNegativeVisit)
    [(.compound [(.declS [(.varD ⟨0, "b1".toList⟩ (some (.unary .lnot (.intLit 0))))]), (.declS [(.varD ⟨1, "b2".toList⟩ (some (.unary .not (.intLit 1))))])])]).isEmpty) = true := by decide +kernel

-- DoubleLogicalNot
example : (reportedAt 0 (overRoots (reportOver doubleNegativeVisit)
    [(.compound [(.declS [(.varD ⟨0, "b".toList⟩ (some (.unary .lnot (.unary .lnot (.intLit 1)))))])])])
    [(.unary .lnot (.unary .lnot (.intLit 1)))]) = true := by decide +kernel

-- DoubleLogicalNotWithParentheses
example : (reportedAt 0 (overRoots (reportOver doubleNegativeVisit)
    [(.compound [(.declS [(.varD ⟨0, "b".toList⟩ (some (.unary .lnot (.paren (.unary .lnot (.intLit 1))))))])])])
    [(.unary .lnot (.paren (.unary .lnot (.intLit 1))))]) = true := by decide +kernel

-- DoubleNot
example : (reportedAt 0 (overRoots (reportOver doubleNegativeVisit)
    [(.compound [(.declS [(.varD ⟨0, "b".toList⟩ (some (.unary .not (.unary .not (.intLit 1)))))])])])
    [(.unary .not (.unary .not (.intLit 1)))]) = true := by decide +kernel

-- DoubleNotWithParentheses
example : (reportedAt 0 (overRoots (reportOver doubleNegativeVisit)
    [(.compound [(.declS [(.varD ⟨0, "b".toList⟩ (some (.unary .not (.paren (.unary .not (.intLit 1))))))])])])
    [(.unary .not (.paren (.unary .not (.intLit 1))))]) = true := by decide +kernel

-- DoubleNegativeWithNestedParentheses
example : (reportedAt 0 (overRoots (reportOver doubleNegativeVisit)
    [(.compound [(.declS [(.varD ⟨0, "b".toList⟩ (some (.unary .lnot (.paren (.paren (.paren (.unary .lnot (.intLit 1))))))))])])])
    [(.unary .lnot (.paren (.paren (.paren (.unary .lnot (.intLit 1))))))]) = true := by decide +kernel

-- NotFollowByLogicalNot
example : ((overRoots (reportOver doubleNegativeVisit)
    [(.compound [(.declS [(.varD ⟨0, "b".toList⟩ (some (.unary .not (.unary .lnot (.intLit 1)))))])])]).isEmpty) = true := by decide +kernel

-- LogicalNotFollowByNot
example : ((overRoots (reportOver doubleNegativeVisit)
    [(.compound [(.declS [(.varD ⟨0, "b".toList⟩ (some (.unary .lnot (.unary .not (.intLit 1)))))])])]).isEmpty) = true := by decide +kernel

/-! ## `oclint-rules/test/basic/ForLoopShouldBeWhileLoopRuleTest.cpp` -/

-- GoodForLoop
example : ((overRoots (reportOver forShouldBeWhileVisit)
    [(.compound [(.forS (some (.declS [(.varD ⟨0, "i".toList⟩ (some (.intLit 0)))])) (some (.binary .lt (.cast .implicit .lvalueToRvalue (.declRef ⟨0, "i".toList⟩)) (.cast .implicit .lvalueToRvalue (.declRef ⟨1, "a".toList⟩)))) (some (.unary .postInc (.declRef ⟨0, "i".toList⟩))) (.compound [.nullS]))])]).isEmpty) = true := by decide +kernel

-- NoIncExpr
example : ((overRoots (reportOver forShouldBeWhileVisit)
    [(.compound [(.forS (some (.declS [(.varD ⟨0, "i".toList⟩ (some (.intLit 0)))])) (some (.binary .lt (.cast .implicit .lvalueToRvalue (.declRef ⟨0, "i".toList⟩)) (.cast .implicit .lvalueToRvalue (.declRef ⟨1, "a".toList⟩)))) none (.compound [.nullS]))])]).isEmpty) = true := by decide +kernel

-- NoInitExpr
example : ((overRoots (reportOver forShouldBeWhileVisit)
    [(.compound [(.forS none (some (.binary .lt (.cast .implicit .lvalueToRvalue (.declRef ⟨0, "a".toList⟩)) (.intLit 100))) (some (.unary .postInc (.declRef ⟨0, "a".toList⟩))) (.compound [.nullS]))])]).isEmpty) = true := by decide +kernel

-- NoInitExprNorIncExpr
example : (reportedAt 0 (overRoots (reportOver forShouldBeWhileVisit)
    [(.compound [(.forS none (some (.binary .lt (.cast .implicit .lvalueToRvalue (.declRef ⟨0, "a".toList⟩)) (.intLit 100))) none (.compound [.nullS]))])])
    [(.forS none (some (.binary .lt (.cast .implicit .lvalueToRvalue (.declRef ⟨0, "a".toList⟩)) (.intLit 100))) none (.compound [.nullS]))]) = true := by decide +kernel

-- IgnoreNullCondExpr
example : ((overRoots (reportOver forShouldBeWhileVisit)
    [(.compound [(.forS (some (.declS [(.varD ⟨0, "i".toList⟩ (some (.intLit 0)))])) none (some (.unary .postInc (.declRef ⟨0, "i".toList⟩))) (.compound [.nullS]))])]).isEmpty) = true := by decide +kernel

/-! ## `oclint-rules/test/basic/GotoStatementRuleTest.cpp` -/

-- NoGoto
example : ((overRoots (reportOver gotoVisit)
    [(.compound [(.ifS none (.intLit 1) (.compound [.nullS]) none)])]).isEmpty) = true := by decide +kernel

-- OneGoto
example : (reportedAt 0 (overRoots (reportOver gotoVisit)
    [(.compound [(.gotoS []), (.labelS "A".toList (.call (.cast .implicit .other (.declRef ⟨0, "a".toList⟩)) []))])])
    [(.gotoS [])]) = true := by decide +kernel

-- TwoGotos
example : (reportedAt 0 (overRoots (reportOver gotoVisit)
    [(.compound [(.gotoS []), (.gotoS []), (.labelS "A".toList (.call (.cast .implicit .other (.declRef ⟨0, "a".toList⟩)) [])), (.labelS "B".toList (.call (.cast .implicit .other (.declRef ⟨0, "a".toList⟩)) []))])])
    [(.gotoS [])]) = true := by decide +kernel

-- TwoGotos
example : (reportedAt 1 (overRoots (reportOver gotoVisit)
    [(.compound [(.gotoS []), (.gotoS []), (.labelS "A".toList (.call (.cast .implicit .other (.declRef ⟨0, "a".toList⟩)) [])), (.labelS "B".toList (.call (.cast .implicit .other (.declRef ⟨0, "a".toList⟩)) []))])])
    [(.gotoS [])]) = true := by decide +kernel

/-! ## `oclint-rules/test/basic/JumbledIncrementerRuleTest.cpp` -/

-- GoodNestedForLoops
example : ((overRoots (reportOver jumbledIncrementerVisit)
    [(.compound [(.forS (some (.declS [(.varD ⟨0, "i".toList⟩ (some (.intLit 0)))])) (some (.binary .lt (.cast .implicit .lvalueToRvalue (.declRef ⟨0, "i".toList⟩)) (.cast .implicit .lvalueToRvalue (.declRef ⟨1, "a".toList⟩)))) (some (.unary .postInc (.declRef ⟨0, "i".toList⟩))) (.compound [(.forS (some (.declS [(.varD ⟨2, "j".toList⟩ (some (.intLit 0)))])) (some (.binary .lt (.cast .implicit .lvalueToRvalue (.declRef ⟨2, "j".toList⟩)) (.cast .implicit .lvalueToRvalue (.declRef ⟨1, "a".toList⟩)))) (some (.unary .postInc (.declRef ⟨2, "j".toList⟩))) (.compound [.nullS]))]))])]).isEmpty) = true := by decide +kernel

-- InnerForLoopInsideCompoundStmt
example : (reportedAt 0 (overRoots (reportOver jumbledIncrementerVisit)
    [(.compound [(.forS (some (.declS [(.varD ⟨0, "i".toList⟩ (some (.intLit 0)))])) (some (.binary .lt (.cast .implicit .lvalueToRvalue (.declRef ⟨0, "i".toList⟩)) (.cast .implicit .lvalueToRvalue (.declRef ⟨1, "a".toList⟩)))) (some (.unary .postInc (.declRef ⟨0, "i".toList⟩))) (.compound [(.forS (some (.declS [(.varD ⟨2, "j".toList⟩ (some (.intLit 0)))])) (some (.binary .lt (.cast .implicit .lvalueToRvalue (.declRef ⟨2, "j".toList⟩)) (.cast .implicit .lvalueToRvalue (.declRef ⟨1, "a".toList⟩)))) (some (.unary .postInc (.declRef ⟨0, "i".toList⟩))) (.compound [.nullS]))]))])])
    [(.unary .postInc (.declRef ⟨0, "i".toList⟩))]) = true := by decide +kernel

-- InnerForLoopIsTheBodyOfOuterForLoop
example : (reportedAt 0 (overRoots (reportOver jumbledIncrementerVisit)
    [(.compound [(.forS (some (.declS [(.varD ⟨0, "i".toList⟩ (some (.intLit 0)))])) (some (.binary .lt (.cast .implicit .lvalueToRvalue (.declRef ⟨0, "i".toList⟩)) (.cast .implicit .lvalueToRvalue (.declRef ⟨1, "a".toList⟩)))) (some (.unary .postInc (.declRef ⟨0, "i".toList⟩))) (.forS (some (.declS [(.varD ⟨2, "j".toList⟩ (some (.intLit 0)))])) (some (.binary .lt (.cast .implicit .lvalueToRvalue (.declRef ⟨2, "j".toList⟩)) (.cast .implicit .lvalueToRvalue (.declRef ⟨1, "a".toList⟩)))) (some (.unary .postInc (.declRef ⟨0, "i".toList⟩))) (.compound [.nullS])))])])
    [(.unary .postInc (.declRef ⟨0, "i".toList⟩))]) = true := by decide +kernel

-- MultiIncsAreFine
example : ((overRoots (reportOver jumbledIncrementerVisit)
    [(.compound [(.forS (some (.declS [(.varD ⟨0, "i".toList⟩ (some (.intLit 0)))])) (some (.binary .lt (.cast .implicit .lvalueToRvalue (.declRef ⟨0, "i".toList⟩)) (.cast .implicit .lvalueToRvalue (.declRef ⟨1, "a".toList⟩)))) (some (.unary .postInc (.declRef ⟨0, "i".toList⟩))) (.forS (some (.declS [(.varD ⟨2, "j".toList⟩ (some (.intLit 0)))])) (some (.binary .lt (.cast .implicit .lvalueToRvalue (.declRef ⟨2, "j".toList⟩)) (.cast .implicit .lvalueToRvalue (.declRef ⟨1, "a".toList⟩)))) (some (.binary .comma (.unary .postInc (.declRef ⟨0, "i".toList⟩)) (.unary .postInc (.declRef ⟨2, "j".toList⟩)))) (.compound [.nullS])))])]).isEmpty) = true := by decide +kernel

/-! ## `oclint-rules/test/basic/MisplacedNullCheckRuleTest.cpp` -/

-- C_CorrectExplicitNullEqCheck
example : ((overRoots (reportOver misplacedNullVisit)
    [(.compound [(.ifS none (.binary .land (.binary .ne (.cast .implicit .lvalueToRvalue (.declRef ⟨0, "a".toList⟩)) (.cast .implicit .bitCast (.paren (.cast .cstyle .nullToPointer (.intLit 0))))) (.binary .eq (.cast .implicit .lvalueToRvalue (.member true (.cast .implicit .lvalueToRvalue (.declRef ⟨0, "a".toList⟩)) "foo".toList)) (.intLit 1))) (.compound [.nullS]) none)])]).isEmpty) = true := by decide +kernel

-- C_CorrectEzNullEqCheck
example : ((overRoots (reportOver misplacedNullVisit)
    [(.compound [(.ifS none (.binary .land (.cast .implicit .lvalueToRvalue (.declRef ⟨0, "a".toList⟩)) (.binary .eq (.cast .implicit .lvalueToRvalue (.member true (.cast .implicit .lvalueToRvalue (.declRef ⟨0, "a".toList⟩)) "foo".toList)) (.intLit 1))) (.compound [.nullS]) none)])]).isEmpty) = true := by decide +kernel

-- C_MisplacedExplicitNullEqCheck
example : (reportedAt 0 (overRoots (reportOver misplacedNullVisit)
    [(.compound [(.ifS none (.binary .land (.binary .eq (.cast .implicit .lvalueToRvalue (.member true (.cast .implicit .lvalueToRvalue (.declRef ⟨0, "a".toList⟩)) "foo".toList)) (.intLit 1)) (.binary .ne (.cast .implicit .lvalueToRvalue (.declRef ⟨0, "a".toList⟩)) (.cast .implicit .bitCast (.paren (.cast .cstyle .nullToPointer (.intLit 0)))))) (.compound [.nullS]) none)])])
    [(.binary .land (.binary .eq (.cast .implicit .lvalueToRvalue (.member true (.cast .implicit .lvalueToRvalue (.declRef ⟨0, "a".toList⟩)) "foo".toList)) (.intLit 1)) (.binary .ne (.cast .implicit .lvalueToRvalue (.declRef ⟨0, "a".toList⟩)) (.cast .implicit .bitCast (.paren (.cast .cstyle .nullToPointer (.intLit 0))))))]) = true := by decide +kernel

-- C_MisplacedEzNullEqCheck
example : (reportedAt 0 (overRoots (reportOver misplacedNullVisit)
    [(.compound [(.ifS none (.binary .land (.binary .eq (.cast .implicit .lvalueToRvalue (.member true (.cast .implicit .lvalueToRvalue (.declRef ⟨0, "a".toList⟩)) "foo".toList)) (.intLit 1)) (.cast .implicit .lvalueToRvalue (.declRef ⟨0, "a".toList⟩))) (.compound [.nullS]) none)])])
    [(.binary .land (.binary .eq (.cast .implicit .lvalueToRvalue (.member true (.cast .implicit .lvalueToRvalue (.declRef ⟨0, "a".toList⟩)) "foo".toList)) (.intLit 1)) (.cast .implicit .lvalueToRvalue (.declRef ⟨0, "a".toList⟩)))]) = true := by decide +kernel

-- C_CorrectExplicitNullNeCheck
example : ((overRoots (reportOver misplacedNullVisit)
    [(.compound [(.ifS none (.binary .lor (.binary .eq (.cast .implicit .lvalueToRvalue (.declRef ⟨0, "a".toList⟩)) (.cast .implicit .bitCast (.paren (.cast .cstyle .nullToPointer (.intLit 0))))) (.binary .eq (.cast .implicit .lvalueToRvalue (.member true (.cast .implicit .lvalueToRvalue (.declRef ⟨0, "a".toList⟩)) "foo".toList)) (.intLit 1))) (.compound [.nullS]) none)])]).isEmpty) = true := by decide +kernel

-- C_CorrectEzNullNeCheck
example : ((overRoots (reportOver misplacedNullVisit)
    [(.compound [(.ifS none (.binary .lor (.unary .lnot (.cast .implicit .lvalueToRvalue (.declRef ⟨0, "a".toList⟩))) (.binary .eq (.cast .implicit .lvalueToRvalue (.member true (.cast .implicit .lvalueToRvalue (.declRef ⟨0, "a".toList⟩)) "foo".toList)) (.intLit 1))) (.compound [.nullS]) none)])]).isEmpty) = true := by decide +kernel

-- C_MisplacedExplicitNullNeCheck
example : (reportedAt 0 (overRoots (reportOver misplacedNullVisit)
    [(.compound [(.ifS none (.binary .lor (.binary .eq (.cast .implicit .lvalueToRvalue (.member true (.cast .implicit .lvalueToRvalue (.declRef ⟨0, "a".toList⟩)) "foo".toList)) (.intLit 1)) (.binary .eq (.cast .implicit .lvalueToRvalue (.declRef ⟨0, "a".toList⟩)) (.cast .implicit .bitCast (.paren (.cast .cstyle .nullToPointer (.intLit 0)))))) (.compound [.nullS]) none)])])
    [(.binary .lor (.binary .eq (.cast .implicit .lvalueToRvalue (.member true (.cast .implicit .lvalueToRvalue (.declRef ⟨0, "a".toList⟩)) "foo".toList)) (.intLit 1)) (.binary .eq (.cast .implicit .lvalueToRvalue (.declRef ⟨0, "a".toList⟩)) (.cast .implicit .bitCast (.paren (.cast .cstyle .nullToPointer (.intLit 0))))))]) = true := by decide +kernel

-- C_MisplacedEzNullNeCheck
example : (reportedAt 0 (overRoots (reportOver misplacedNullVisit)
    [(.compound [(.ifS none (.binary .lor (.binary .eq (.cast .implicit .lvalueToRvalue (.member true (.cast .implicit .lvalueToRvalue (.declRef ⟨0, "a".toList⟩)) "foo".toList)) (.intLit 1)) (.unary .lnot (.cast .implicit .lvalueToRvalue (.declRef ⟨0, "a".toList⟩)))) (.compound [.nullS]) none)])])
    [(.binary .lor (.binary .eq (.cast .implicit .lvalueToRvalue (.member true (.cast .implicit .lvalueToRvalue (.declRef ⟨0, "a".toList⟩)) "foo".toList)) (.intLit 1)) (.unary .lnot (.cast .implicit .lvalueToRvalue (.declRef ⟨0, "a".toList⟩))))]) = true := by decide +kernel

-- Cpp_CorrectExplicitNullEqCheck
example : ((overRoots (reportOver misplacedNullVisit)
    [(.compound [(.ifS none (.binary .land (.binary .ne (.cast .implicit .lvalueToRvalue (.declRef ⟨0, "a".toList⟩)) (.cast .implicit .nullToPointer (.intLit 0))) (.call (.member true (.cast .implicit .lvalueToRvalue (.declRef ⟨0, "a".toList⟩)) "bar".toList) [(.cast .implicit .lvalueToRvalue (.declRef ⟨1, "b".toList⟩))])) (.compound [.nullS]) none)])]).isEmpty) = true := by decide +kernel

-- Cpp_CorrectEzNullEqCheck
example : ((overRoots (reportOver misplacedNullVisit)
    [(.compound [(.ifS none (.binary .land (.cast .implicit .pointerToBoolean (.cast .implicit .lvalueToRvalue (.declRef ⟨0, "a".toList⟩))) (.call (.member true (.cast .implicit .lvalueToRvalue (.declRef ⟨0, "a".toList⟩)) "bar".toList) [(.cast .implicit .lvalueToRvalue (.declRef ⟨1, "b".toList⟩))])) (.compound [.nullS]) none)])]).isEmpty) = true := by decide +kernel

-- Cpp_MisplacedExplicitNullEqCheck
example : (reportedAt 0 (overRoots (reportOver misplacedNullVisit)
    [(.compound [(.ifS none (.binary .land (.call (.member true (.cast .implicit .lvalueToRvalue (.declRef ⟨0, "a".toList⟩)) "bar".toList) [(.cast .implicit .lvalueToRvalue (.declRef ⟨1, "b".toList⟩))]) (.binary .ne (.cast .implicit .lvalueToRvalue (.declRef ⟨0, "a".toList⟩)) (.cast .implicit .nullToPointer (.intLit 0)))) (.compound [.nullS]) none)])])
    [(.binary .land (.call (.member true (.cast .implicit .lvalueToRvalue (.declRef ⟨0, "a".toList⟩)) "bar".toList) [(.cast .implicit .lvalueToRvalue (.declRef ⟨1, "b".toList⟩))]) (.binary .ne (.cast .implicit .lvalueToRvalue (.declRef ⟨0, "a".toList⟩)) (.cast .implicit .nullToPointer (.intLit 0))))]) = true := by decide +kernel

-- Cpp_MisplacedEzNullEqCheck
example : (reportedAt 0 (overRoots (reportOver misplacedNullVisit)
    [(.compound [(.ifS none (.binary .land (.call (.member true (.cast .implicit .lvalueToRvalue (.declRef ⟨0, "a".toList⟩)) "bar".toList) [(.cast .implicit .lvalueToRvalue (.declRef ⟨1, "b".toList⟩))]) (.cast .implicit .pointerToBoolean (.cast .implicit .lvalueToRvalue (.declRef ⟨0, "a".toList⟩)))) (.compound [.nullS]) none)])])
    [(.binary .land (.call (.member true (.cast .implicit .lvalueToRvalue (.declRef ⟨0, "a".toList⟩)) "bar".toList) [(.cast .implicit .lvalueToRvalue (.declRef ⟨1, "b".toList⟩))]) (.cast .implicit .pointerToBoolean (.cast .implicit .lvalueToRvalue (.declRef ⟨0, "a".toList⟩))))]) = true := by decide +kernel

-- Cpp_CorrectExplicitNullNeCheck
example : ((overRoots (reportOver misplacedNullVisit)
    [(.compound [(.ifS none (.binary .lor (.binary .eq (.cast .implicit .lvalueToRvalue (.declRef ⟨0, "a".toList⟩)) (.cast .implicit .nullToPointer (.intLit 0))) (.call (.member true (.cast .implicit .lvalueToRvalue (.declRef ⟨0, "a".toList⟩)) "bar".toList) [(.cast .implicit .lvalueToRvalue (.declRef ⟨1, "b".toList⟩))])) (.compound [.nullS]) none)])]).isEmpty) = true := by decide +kernel

-- Cpp_CorrectEzNullNeCheck
example : ((overRoots (reportOver misplacedNullVisit)
    [(.compound [(.ifS none (.binary .lor (.unary .lnot (.cast .implicit .pointerToBoolean (.cast .implicit .lvalueToRvalue (.declRef ⟨0, "a".toList⟩)))) (.call (.member true (.cast .implicit .lvalueToRvalue (.declRef ⟨0, "a".toList⟩)) "bar".toList) [(.cast .implicit .lvalueToRvalue (.declRef ⟨1, "b".toList⟩))])) (.compound [.nullS]) none)])]).isEmpty) = true := by decide +kernel

-- Cpp_MisplacedExplicitNullNeCheck
example : (reportedAt 0 (overRoots (reportOver misplacedNullVisit)
    [(.compound [(.ifS none (.binary .lor (.call (.member true (.cast .implicit .lvalueToRvalue (.declRef ⟨0, "a".toList⟩)) "bar".toList) [(.cast .implicit .lvalueToRvalue (.declRef ⟨1, "b".toList⟩))]) (.binary .eq (.cast .implicit .lvalueToRvalue (.declRef ⟨0, "a".toList⟩)) (.cast .implicit .nullToPointer (.intLit 0)))) (.compound [.nullS]) none)])])
    [(.binary .lor (.call (.member true (.cast .implicit .lvalueToRvalue (.declRef ⟨0, "a".toList⟩)) "bar".toList) [(.cast .implicit .lvalueToRvalue (.declRef ⟨1, "b".toList⟩))]) (.binary .eq (.cast .implicit .lvalueToRvalue (.declRef ⟨0, "a".toList⟩)) (.cast .implicit .nullToPointer (.intLit 0))))]) = true := by decide +kernel

-- Cpp_MisplacedEzNullNeCheck
example : (reportedAt 0 (overRoots (reportOver misplacedNullVisit)
    [(.compound [(.ifS none (.binary .lor (.call (.member true (.cast .implicit .lvalueToRvalue (.declRef ⟨0, "a".toList⟩)) "bar".toList) [(.cast .implicit .lvalueToRvalue (.declRef ⟨1, "b".toList⟩))]) (.unary .lnot (.cast .implicit .pointerToBoolean (.cast .implicit .lvalueToRvalue (.declRef ⟨0, "a".toList⟩))))) (.compound [.nullS]) none)])])
    [(.binary .lor (.call (.member true (.cast .implicit .lvalueToRvalue (.declRef ⟨0, "a".toList⟩)) "bar".toList) [(.cast .implicit .lvalueToRvalue (.declRef ⟨1, "b".toList⟩))]) (.unary .lnot (.cast .implicit .pointerToBoolean (.cast .implicit .lvalueToRvalue (.declRef ⟨0, "a".toList⟩)))))]) = true := by decide +kernel

-- ObjC_CorrectNullEqCheck
example : ((overRoots (reportOver misplacedNilVisit)
    [(.compound [(.returnS (some (.cast .cstyle .other (.intLit 1))))]),
    (.compound [(.ifS none (.message (some "A".toList) (some (.cast .implicit .lvalueToRvalue (.declRef ⟨0, "obj1".toList⟩))) "isEqualTo:".toList [(.cast .implicit .bitCast (.cast .implicit .lvalueToRvalue (.declRef ⟨1, "obj2".toList⟩)))]) (.compound [.nullS]) none)])]).isEmpty) = true := by decide +kernel

-- ObjC_EzButRedundantNullEqCheck
example : ((overRoots (reportOver misplacedNilVisit)
    [(.compound [(.returnS (some (.cast .cstyle .other (.intLit 1))))]),
    (.compound [(.ifS none (.binary .land (.cast .implicit .lvalueToRvalue (.declRef ⟨0, "obj1".toList⟩)) (.cast .implicit .other (.message (some "A".toList) (some (.cast .implicit .lvalueToRvalue (.declRef ⟨0, "obj1".toList⟩))) "isEqualTo:".toList [(.cast .implicit .bitCast (.cast .implicit .lvalueToRvalue (.declRef ⟨1, "obj2".toList⟩)))]))) (.compound [.nullS]) none)])]).isEmpty) = true := by decide +kernel

-- ObjC_ExplicitButRedundantNullEqCheck
example : ((overRoots (reportOver misplacedNilVisit)
    [(.compound [(.returnS (some (.cast .cstyle .other (.intLit 1))))]),
    (.compound [(.ifS none (.binary .land (.binary .ne (.cast .implicit .lvalueToRvalue (.declRef ⟨0, "obj1".toList⟩)) (.cast .implicit .bitCast (.cast .cstyle .nullToPointer (.intLit 0)))) (.cast .implicit .other (.message (some "A".toList) (some (.cast .implicit .lvalueToRvalue (.declRef ⟨0, "obj1".toList⟩))) "isEqualTo:".toList [(.cast .implicit .bitCast (.cast .implicit .lvalueToRvalue (.declRef ⟨1, "obj2".toList⟩)))]))) (.compound [.nullS]) none)])]).isEmpty) = true := by decide +kernel

-- ObjC_MisplacedEzButRedundantNullEqCheck
example : (reportedAt 0 (overRoots (reportOver misplacedNilVisit)
    [(.compound [(.returnS (some (.cast .cstyle .other (.intLit 1))))]),
    (.compound [(.ifS none (.binary .land (.cast .implicit .other (.message (some "A".toList) (some (.cast .implicit .lvalueToRvalue (.declRef ⟨0, "obj1".toList⟩))) "isEqualTo:".toList [(.cast .implicit .bitCast (.cast .implicit .lvalueToRvalue (.declRef ⟨1, "obj2".toList⟩)))])) (.cast .implicit .lvalueToRvalue (.declRef ⟨0, "obj1".toList⟩))) (.compound [.nullS]) none)])])
    [(.binary .land (.cast .implicit .other (.message (some "A".toList) (some (.cast .implicit .lvalueToRvalue (.declRef ⟨0, "obj1".toList⟩))) "isEqualTo:".toList [(.cast .implicit .bitCast (.cast .implicit .lvalueToRvalue (.declRef ⟨1, "obj2".toList⟩)))])) (.cast .implicit .lvalueToRvalue (.declRef ⟨0, "obj1".toList⟩)))]) = true := by decide +kernel

-- ObjC_MisplacedExplicitButRedundantNullEqCheck
example : (reportedAt 0 (overRoots (reportOver misplacedNilVisit)
    [(.compound [(.returnS (some (.cast .cstyle .other (.intLit 1))))]),
    (.compound [(.ifS none (.binary .land (.cast .implicit .other (.message (some "A".toList) (some (.cast .implicit .lvalueToRvalue (.declRef ⟨0, "obj1".toList⟩))) "isEqualTo:".toList [(.cast .implicit .bitCast (.cast .implicit .lvalueToRvalue (.declRef ⟨1, "obj2".toList⟩)))])) (.binary .ne (.cast .implicit .lvalueToRvalue (.declRef ⟨0, "obj1".toList⟩)) (.cast .implicit .bitCast (.cast .cstyle .nullToPointer (.intLit 0))))) (.compound [.nullS]) none)])])
    [(.binary .land (.cast .implicit .other (.message (some "A".toList) (some (.cast .implicit .lvalueToRvalue (.declRef ⟨0, "obj1".toList⟩))) "isEqualTo:".toList [(.cast .implicit .bitCast (.cast .implicit .lvalueToRvalue (.declRef ⟨1, "obj2".toList⟩)))])) (.binary .ne (.cast .implicit .lvalueToRvalue (.declRef ⟨0, "obj1".toList⟩)) (.cast .implicit .bitCast (.cast .cstyle .nullToPointer (.intLit 0)))))]) = true := by decide +kernel

-- ObjC_EzButRedundantNullNeCheck
example : ((overRoots (reportOver misplacedNilVisit)
    [(.compound [(.returnS (some (.cast .cstyle .other (.intLit 1))))]),
    (.compound [(.ifS none (.binary .lor (.unary .lnot (.cast .implicit .lvalueToRvalue (.declRef ⟨0, "obj1".toList⟩))) (.unary .lnot (.message (some "A".toList) (some (.cast .implicit .lvalueToRvalue (.declRef ⟨0, "obj1".toList⟩))) "isEqualTo:".toList [(.cast .implicit .bitCast (.cast .implicit .lvalueToRvalue (.declRef ⟨1, "obj2".toList⟩)))]))) (.compound [.nullS]) none)])]).isEmpty) = true := by decide +kernel

-- ObjC_ExplicitButRedundantNullNeCheck
example : ((overRoots (reportOver misplacedNilVisit)
    [(.compound [(.returnS (some (.cast .cstyle .other (.intLit 1))))]),
    (.compound [(.ifS none (.binary .lor (.binary .eq (.cast .implicit .lvalueToRvalue (.declRef ⟨0, "obj1".toList⟩)) (.cast .implicit .bitCast (.cast .cstyle .nullToPointer (.intLit 0)))) (.unary .lnot (.message (some "A".toList) (some (.cast .implicit .lvalueToRvalue (.declRef ⟨0, "obj1".toList⟩))) "isEqualTo:".toList [(.cast .implicit .bitCast (.cast .implicit .lvalueToRvalue (.declRef ⟨1, "obj2".toList⟩)))]))) (.compound [.nullS]) none)])]).isEmpty) = true := by decide +kernel

-- ObjC_MisplacedEzButRedundantNullNeCheck
example : (reportedAt 0 (overRoots (reportOver misplacedNilVisit)
    [(.compound [(.returnS (some (.cast .cstyle .other (.intLit 1))))]),
    (.compound [(.ifS none (.binary .lor (.unary .lnot (.message (some "A".toList) (some (.cast .implicit .lvalueToRvalue (.declRef ⟨0, "obj1".toList⟩))) "isEqualTo:".toList [(.cast .implicit .bitCast (.cast .implicit .lvalueToRvalue (.declRef ⟨1, "obj2".toList⟩)))])) (.unary .lnot (.cast .implicit .lvalueToRvalue (.declRef ⟨0, "obj1".toList⟩)))) (.compound [.nullS]) none)])])
    [(.binary .lor (.unary .lnot (.message (some "A".toList) (some (.cast .implicit .lvalueToRvalue (.declRef ⟨0, "obj1".toList⟩))) "isEqualTo:".toList [(.cast .implicit .bitCast (.cast .implicit .lvalueToRvalue (.declRef ⟨1, "obj2".toList⟩)))])) (.unary .lnot (.cast .implicit .lvalueToRvalue (.declRef ⟨0, "obj1".toList⟩))))]) = true := by decide +kernel

-- ObjC_MisplacedExplicitButRedundantNullNeCheck
example : (reportedAt 0 (overRoots (reportOver misplacedNilVisit)
    [(.compound [(.returnS (some (.cast .cstyle .other (.intLit 1))))]),
    (.compound [(.ifS none (.binary .lor (.unary .lnot (.message (some "A".toList) (some (.cast .implicit .lvalueToRvalue (.declRef ⟨0, "obj1".toList⟩))) "isEqualTo:".toList [(.cast .implicit .bitCast (.cast .implicit .lvalueToRvalue (.declRef ⟨1, "obj2".toList⟩)))])) (.binary .eq (.cast .implicit .lvalueToRvalue (.declRef ⟨0, "obj1".toList⟩)) (.cast .implicit .bitCast (.cast .cstyle .nullToPointer (.intLit 0))))) (.compound [.nullS]) none)])])
    [(.binary .lor (.unary .lnot (.message (some "A".toList) (some (.cast .implicit .lvalueToRvalue (.declRef ⟨0, "obj1".toList⟩))) "isEqualTo:".toList [(.cast .implicit .bitCast (.cast .implicit .lvalueToRvalue (.declRef ⟨1, "obj2".toList⟩)))])) (.binary .eq (.cast .implicit .lvalueToRvalue (.declRef ⟨0, "obj1".toList⟩)) (.cast .implicit .bitCast (.cast .cstyle .nullToPointer (.intLit 0)))))]) = true := by decide +kernel

-- C_ShouldIgnoreDifferentIdentifers
example : ((overRoots (reportOver misplacedNullVisit)
    [(.compound [(.ifS none (.binary .lor (.binary .eq (.cast .implicit .lvalueToRvalue (.member true (.cast .implicit .lvalueToRvalue (.declRef ⟨0, "a".toList⟩)) "foo".toList)) (.intLit 1)) (.unary .lnot (.cast .implicit .lvalueToRvalue (.declRef ⟨1, "b".toList⟩)))) (.compound [.nullS]) none)])]).isEmpty) = true := by decide +kernel

-- ObjC_ShouldIgnoreDifferentIdentifers
example : ((overRoots (reportOver misplacedNilVisit)
    [(.compound [(.returnS (some (.cast .cstyle .other (.intLit 1))))]),
    (.compound [(.ifS none (.binary .lor (.unary .lnot (.message (some "A".toList) (some (.cast .implicit .lvalueToRvalue (.declRef ⟨0, "obj2".toList⟩))) "isEqualTo:".toList [(.cast .implicit .bitCast (.cast .implicit .lvalueToRvalue (.declRef ⟨1, "obj1".toList⟩)))])) (.binary .eq (.cast .implicit .lvalueToRvalue (.declRef ⟨1, "obj1".toList⟩)) (.cast .implicit .bitCast (.cast .cstyle .nullToPointer (.intLit 0))))) (.compound [.nullS]) none)])]).isEmpty) = true := by decide +kernel

-- C_NullEqualsNull
example : ((overRoots (reportOver misplacedNullVisit)
    [(.compound [(.ifS none (.binary .lor (.binary .eq (.cast .implicit .lvalueToRvalue (.member true (.cast .implicit .lvalueToRvalue (.declRef ⟨0, "a".toList⟩)) "foo".toList)) (.intLit 1)) (.binary .eq (.paren (.cast .cstyle .nullToPointer (.intLit 0))) (.paren (.cast .cstyle .nullToPointer (.intLit 0))))) (.compound [.nullS]) none)])]).isEmpty) = true := by decide +kernel

-- C_NullOnTheLeftHandSide
example : (reportedAt 0 (overRoots (reportOver misplacedNullVisit)
    [(.compound [(.ifS none (.binary .lor (.binary .eq (.cast .implicit .lvalueToRvalue (.member true (.cast .implicit .lvalueToRvalue (.declRef ⟨0, "a".toList⟩)) "foo".toList)) (.intLit 1)) (.binary .eq (.cast .implicit .bitCast (.paren (.cast .cstyle .nullToPointer (.intLit 0)))) (.cast .implicit .lvalueToRvalue (.declRef ⟨0, "a".toList⟩)))) (.compound [.nullS]) none)])])
    [(.binary .lor (.binary .eq (.cast .implicit .lvalueToRvalue (.member true (.cast .implicit .lvalueToRvalue (.declRef ⟨0, "a".toList⟩)) "foo".toList)) (.intLit 1)) (.binary .eq (.cast .implicit .bitCast (.paren (.cast .cstyle .nullToPointer (.intLit 0)))) (.cast .implicit .lvalueToRvalue (.declRef ⟨0, "a".toList⟩))))]) = true := by decide +kernel

-- C_MultipleMemberExpr
example : (reportedAt 0 (overRoots (reportOver misplacedNullVisit)
    [(.compound [(.ifS none (.binary .land (.paren (.binary .land (.binary .eq (.cast .implicit .lvalueToRvalue (.member true (.cast .implicit .lvalueToRvalue (.declRef ⟨0, "c".toList⟩)) "bar".toList)) (.intLit 0)) (.binary .eq (.cast .implicit .lvalueToRvalue (.member true (.cast .implicit .lvalueToRvalue (.declRef ⟨1, "a".toList⟩)) "foo".toList)) (.intLit 1)))) (.binary .ne (.cast .implicit .lvalueToRvalue (.declRef ⟨1, "a".toList⟩)) (.cast .implicit .bitCast (.paren (.cast .cstyle .nullToPointer (.intLit 0)))))) (.compound [.nullS]) none)])])
    [(.binary .land (.paren (.binary .land (.binary .eq (.cast .implicit .lvalueToRvalue (.member true (.cast .implicit .lvalueToRvalue (.declRef ⟨0, "c".toList⟩)) "bar".toList)) (.intLit 0)) (.binary .eq (.cast .implicit .lvalueToRvalue (.member true (.cast .implicit .lvalueToRvalue (.declRef ⟨1, "a".toList⟩)) "foo".toList)) (.intLit 1)))) (.binary .ne (.cast .implicit .lvalueToRvalue (.declRef ⟨1, "a".toList⟩)) (.cast .implicit .bitCast (.paren (.cast .cstyle .nullToPointer (.intLit 0))))))]) = true := by decide +kernel

-- ObjC_MultipleMessageExpr
example : (reportedAt 0 (overRoots (reportOver misplacedNilVisit)
    [(.compound [(.returnS (some (.cast .cstyle .other (.intLit 1))))]),
    (.compound [(.ifS none (.binary .land (.paren (.binary .land (.cast .implicit .other (.message (some "A".toList) (some (.cast .implicit .lvalueToRvalue (.declRef ⟨0, "obj2".toList⟩))) "isEqualTo:".toList [(.cast .implicit .bitCast (.cast .implicit .lvalueToRvalue (.declRef ⟨1, "obj1".toList⟩)))])) (.cast .implicit .other (.message (some "A".toList) (some (.cast .implicit .lvalueToRvalue (.declRef ⟨1, "obj1".toList⟩))) "isEqualTo:".toList [(.cast .implicit .bitCast (.cast .implicit .lvalueToRvalue (.declRef ⟨0, "obj2".toList⟩)))])))) (.binary .ne (.cast .implicit .lvalueToRvalue (.declRef ⟨1, "obj1".toList⟩)) (.cast .implicit .bitCast (.cast .cstyle .nullToPointer (.intLit 0))))) (.compound [.nullS]) none)])])
    [(.binary .land (.paren (.binary .land (.cast .implicit .other (.message (some "A".toList) (some (.cast .implicit .lvalueToRvalue (.declRef ⟨0, "obj2".toList⟩))) "isEqualTo:".toList [(.cast .implicit .bitCast (.cast .implicit .lvalueToRvalue (.declRef ⟨1, "obj1".toList⟩)))])) (.cast .implicit .other (.message (some "A".toList) (some (.cast .implicit .lvalueToRvalue (.declRef ⟨1, "obj1".toList⟩))) "isEqualTo:".toList [(.cast .implicit .bitCast (.cast .implicit .lvalueToRvalue (.declRef ⟨0, "obj2".toList⟩)))])))) (.binary .ne (.cast .implicit .lvalueToRvalue (.declRef ⟨1, "obj1".toList⟩)) (.cast .implicit .bitCast (.cast .cstyle .nullToPointer (.intLit 0)))))]) = true := by decide +kernel

-- C_NullUnderTheHook
example : (reportedAt 0 (overRoots (reportOver misplacedNullVisit)
    [(.compound [(.ifS none (.binary .land (.binary .eq (.cast .implicit .lvalueToRvalue (.member true (.cast .implicit .lvalueToRvalue (.declRef ⟨0, "a".toList⟩)) "foo".toList)) (.intLit 1)) (.binary .ne (.cast .implicit .lvalueToRvalue (.declRef ⟨0, "a".toList⟩)) (.cast .implicit .bitCast (.paren (.cast .cstyle .nullToPointer (.intLit 0)))))) (.compound [.nullS]) none)])])
    [(.binary .land (.binary .eq (.cast .implicit .lvalueToRvalue (.member true (.cast .implicit .lvalueToRvalue (.declRef ⟨0, "a".toList⟩)) "foo".toList)) (.intLit 1)) (.binary .ne (.cast .implicit .lvalueToRvalue (.declRef ⟨0, "a".toList⟩)) (.cast .implicit .bitCast (.paren (.cast .cstyle .nullToPointer (.intLit 0))))))]) = true := by decide +kernel

-- C_ExplicitNull
example : (reportedAt 0 (overRoots (reportOver misplacedNullVisit)
    [(.compound [(.ifS none (.binary .land (.binary .eq (.cast .implicit .lvalueToRvalue (.member true (.cast .implicit .lvalueToRvalue (.declRef ⟨0, "a".toList⟩)) "foo".toList)) (.intLit 1)) (.binary .ne (.cast .implicit .lvalueToRvalue (.declRef ⟨0, "a".toList⟩)) (.cast .implicit .bitCast (.paren (.cast .cstyle .nullToPointer (.intLit 0)))))) (.compound [.nullS]) none)])])
    [(.binary .land (.binary .eq (.cast .implicit .lvalueToRvalue (.member true (.cast .implicit .lvalueToRvalue (.declRef ⟨0, "a".toList⟩)) "foo".toList)) (.intLit 1)) (.binary .ne (.cast .implicit .lvalueToRvalue (.declRef ⟨0, "a".toList⟩)) (.cast .implicit .bitCast (.paren (.cast .cstyle .nullToPointer (.intLit 0))))))]) = true := by decide +kernel

-- C_NullIsNotNull
example : ((overRoots (reportOver misplacedNullVisit)
    [(.compound [(.ifS none (.binary .land (.binary .eq (.cast .implicit .lvalueToRvalue (.member true (.cast .implicit .lvalueToRvalue (.declRef ⟨0, "a".toList⟩)) "foo".toList)) (.intLit 1)) (.binary .ne (.cast .implicit .lvalueToRvalue (.declRef ⟨0, "a".toList⟩)) (.cast .implicit .bitCast (.paren (.cast .cstyle .other (.intLit 2)))))) (.compound [.nullS]) none)])]).isEmpty) = true := by decide +kernel

-- Cpp_NullUnderTheHook
example : (reportedAt 0 (overRoots (reportOver misplacedNullVisit)
    [(.compound [(.ifS none (.binary .land (.call (.member true (.cast .implicit .lvalueToRvalue (.declRef ⟨0, "a".toList⟩)) "bar".toList) [(.cast .implicit .lvalueToRvalue (.declRef ⟨1, "b".toList⟩))]) (.binary .ne (.cast .implicit .lvalueToRvalue (.declRef ⟨0, "a".toList⟩)) (.cast .implicit .nullToPointer (.intLit 0)))) (.compound [.nullS]) none)])])
    [(.binary .land (.call (.member true (.cast .implicit .lvalueToRvalue (.declRef ⟨0, "a".toList⟩)) "bar".toList) [(.cast .implicit .lvalueToRvalue (.declRef ⟨1, "b".toList⟩))]) (.binary .ne (.cast .implicit .lvalueToRvalue (.declRef ⟨0, "a".toList⟩)) (.cast .implicit .nullToPointer (.intLit 0))))]) = true := by decide +kernel

-- Cpp_ExplicitNull
example : (reportedAt 0 (overRoots (reportOver misplacedNullVisit)
    [(.compound [(.ifS none (.binary .land (.call (.member true (.cast .implicit .lvalueToRvalue (.declRef ⟨0, "a".toList⟩)) "bar".toList) [(.cast .implicit .lvalueToRvalue (.declRef ⟨1, "b".toList⟩))]) (.binary .ne (.cast .implicit .lvalueToRvalue (.declRef ⟨0, "a".toList⟩)) (.cast .implicit .nullToPointer (.intLit 0)))) (.compound [.nullS]) none)])])
    [(.binary .land (.call (.member true (.cast .implicit .lvalueToRvalue (.declRef ⟨0, "a".toList⟩)) "bar".toList) [(.cast .implicit .lvalueToRvalue (.declRef ⟨1, "b".toList⟩))]) (.binary .ne (.cast .implicit .lvalueToRvalue (.declRef ⟨0, "a".toList⟩)) (.cast .implicit .nullToPointer (.intLit 0))))]) = true := by decide +kernel

-- ObjC_NullUnderTheHook
example : (reportedAt 0 (overRoots (reportOver misplacedNilVisit)
    [(.compound [(.returnS (some (.cast .cstyle .other (.intLit 1))))]),
    (.compound [(.ifS none (.binary .land (.cast .implicit .other (.message (some "A".toList) (some (.cast .implicit .lvalueToRvalue (.declRef ⟨0, "obj1".toList⟩))) "isEqualTo:".toList [(.cast .implicit .bitCast (.cast .implicit .lvalueToRvalue (.declRef ⟨1, "obj2".toList⟩)))])) (.binary .ne (.cast .implicit .lvalueToRvalue (.declRef ⟨0, "obj1".toList⟩)) (.cast .implicit .bitCast (.cast .cstyle .nullToPointer (.intLit 0))))) (.compound [.nullS]) none)])])
    [(.binary .land (.cast .implicit .other (.message (some "A".toList) (some (.cast .implicit .lvalueToRvalue (.declRef ⟨0, "obj1".toList⟩))) "isEqualTo:".toList [(.cast .implicit .bitCast (.cast .implicit .lvalueToRvalue (.declRef ⟨1, "obj2".toList⟩)))])) (.binary .ne (.cast .implicit .lvalueToRvalue (.declRef ⟨0, "obj1".toList⟩)) (.cast .implicit .bitCast (.cast .cstyle .nullToPointer (.intLit 0)))))]) = true := by decide +kernel

-- ObjC_ExplicitNull
example : (reportedAt 0 (overRoots (reportOver misplacedNilVisit)
    [(.compound [(.returnS (some (.cast .cstyle .other (.intLit 1))))]),
    (.compound [(.ifS none (.binary .land (.cast .implicit .other (.message (some "A".toList) (some (.cast .implicit .lvalueToRvalue (.declRef ⟨0, "obj1".toList⟩))) "isEqualTo:".toList [(.cast .implicit .bitCast (.cast .implicit .lvalueToRvalue (.declRef ⟨1, "obj2".toList⟩)))])) (.binary .ne (.cast .implicit .lvalueToRvalue (.declRef ⟨0, "obj1".toList⟩)) (.cast .implicit .bitCast (.cast .cstyle .nullToPointer (.intLit 0))))) (.compound [.nullS]) none)])])
    [(.binary .land (.cast .implicit .other (.message (some "A".toList) (some (.cast .implicit .lvalueToRvalue (.declRef ⟨0, "obj1".toList⟩))) "isEqualTo:".toList [(.cast .implicit .bitCast (.cast .implicit .lvalueToRvalue (.declRef ⟨1, "obj2".toList⟩)))])) (.binary .ne (.cast .implicit .lvalueToRvalue (.declRef ⟨0, "obj1".toList⟩)) (.cast .implicit .bitCast (.cast .cstyle .nullToPointer (.intLit 0)))))]) = true := by decide +kernel

-- ObjC_NullIsNotNull
example : ((overRoots (reportOver misplacedNilVisit)
    [(.compound [(.returnS (some (.cast .cstyle .other (.intLit 1))))]),
    (.compound [(.ifS none (.binary .land (.cast .implicit .other (.message (some "A".toList) (some (.cast .implicit .lvalueToRvalue (.declRef ⟨0, "obj1".toList⟩))) "isEqualTo:".toList [(.cast .implicit .bitCast (.cast .implicit .lvalueToRvalue (.declRef ⟨1, "obj2".toList⟩)))])) (.binary .ne (.cast .implicit .lvalueToRvalue (.declRef ⟨0, "obj1".toList⟩)) (.cast .implicit .bitCast (.cast .cstyle .other (.intLit 2))))) (.compound [.nullS]) none)])]).isEmpty) = true := by decide +kernel

-- C_MisplacedExplicitNullEqCheck_ShouldIgnoreByObjC
example : ((overRoots (reportOver misplacedNilVisit)
    [(.compound [(.ifS none (.binary .land (.binary .eq (.cast .implicit .lvalueToRvalue (.member true (.cast .implicit .lvalueToRvalue (.declRef ⟨0, "a".toList⟩)) "foo".toList)) (.intLit 1)) (.binary .ne (.cast .implicit .lvalueToRvalue (.declRef ⟨0, "a".toList⟩)) (.cast .implicit .bitCast (.paren (.cast .cstyle .nullToPointer (.intLit 0)))))) (.compound [.nullS]) none)])]).isEmpty) = true := by decide +kernel

-- Cpp_MisplacedExplicitNullEqCheck_ShouldIgnoreByObjC
example : ((overRoots (reportOver misplacedNilVisit)
    [(.compound [(.ifS none (.binary .land (.call (.member true (.cast .implicit .lvalueToRvalue (.declRef ⟨0, "a".toList⟩)) "bar".toList) [(.cast .implicit .lvalueToRvalue (.declRef ⟨1, "b".toList⟩))]) (.binary .ne (.cast .implicit .lvalueToRvalue (.declRef ⟨0, "a".toList⟩)) (.cast .implicit .nullToPointer (.intLit 0)))) (.compound [.nullS]) none)])]).isEmpty) = true := by decide +kernel

-- ObjC_MisplacedEzButRedundantNullEqCheck_ShouldIgnoreByC
example : ((overRoots (reportOver misplacedNullVisit)
    [(.compound [(.returnS (some (.cast .cstyle .other (.intLit 1))))]),
    (.compound [(.ifS none (.binary .land (.cast .implicit .other (.message (some "A".toList) (some (.cast .implicit .lvalueToRvalue (.declRef ⟨0, "obj1".toList⟩))) "isEqualTo:".toList [(.cast .implicit .bitCast (.cast .implicit .lvalueToRvalue (.declRef ⟨1, "obj2".toList⟩)))])) (.cast .implicit .lvalueToRvalue (.declRef ⟨0, "obj1".toList⟩))) (.compound [.nullS]) none)])]).isEmpty) = true := by decide +kernel

/-! ## `oclint-rules/test/basic/MultipleUnaryOperatorRuleTest.cpp` -/

-- OneLevelUnaryOperator
example : ((overRoots (reportOver multipleUnaryVisit)
    [(.compound [(.declS [(.varD ⟨0, "b1".toList⟩ (some (.unary .lnot (.intLit 0))))]), (.declS [(.varD ⟨1, "b2".toList⟩ (some (.unary .not (.intLit 1))))])])]).isEmpty) = true := by decide +kernel

-- DoubleLogicalNot
example : (reportedAt 0 (overRoots (reportOver multipleUnaryVisit)
    [(.compound [(.declS [(.varD ⟨0, "b".toList⟩ (some (.unary .lnot (.unary .lnot (.intLit 1)))))])])])
    [(.unary .lnot (.unary .lnot (.intLit 1)))]) = true := by decide +kernel

-- DoubleLogicalNotWithParentheses
example : (reportedAt 0 (overRoots (reportOver multipleUnaryVisit)
    [(.compound [(.declS [(.varD ⟨0, "b".toList⟩ (some (.unary .lnot (.paren (.unary .lnot (.intLit 1))))))])])])
    [(.unary .lnot (.paren (.unary .lnot (.intLit 1))))]) = true := by decide +kernel

-- DoubleNot
example : (reportedAt 0 (overRoots (reportOver multipleUnaryVisit)
    [(.compound [(.declS [(.varD ⟨0, "b".toList⟩ (some (.unary .not (.unary .not (.intLit 1)))))])])])
    [(.unary .not (.unary .not (.intLit 1)))]) = true := by decide +kernel

-- DoubleNotWithParentheses
example : (reportedAt 0 (overRoots (reportOver multipleUnaryVisit)
    [(.compound [(.declS [(.varD ⟨0, "b".toList⟩ (some (.unary .not (.paren (.unary .not (.intLit 1))))))])])])
    [(.unary .not (.paren (.unary .not (.intLit 1))))]) = true := by decide +kernel

-- DoublePlus
example : (reportedAt 0 (overRoots (reportOver multipleUnaryVisit)
    [(.compound [(.declS [(.varD ⟨0, "b".toList⟩ (some (.unary .plus (.unary .plus (.intLit 1)))))])])])
    [(.unary .plus (.unary .plus (.intLit 1)))]) = true := by decide +kernel

-- DoublePlusWithParentheses
example : (reportedAt 0 (overRoots (reportOver multipleUnaryVisit)
    [(.compound [(.declS [(.varD ⟨0, "b".toList⟩ (some (.unary .plus (.paren (.unary .plus (.intLit 1))))))])])])
    [(.unary .plus (.paren (.unary .plus (.intLit 1))))]) = true := by decide +kernel

-- DoubleMinus
example : (reportedAt 0 (overRoots (reportOver multipleUnaryVisit)
    [(.compound [(.declS [(.varD ⟨0, "b".toList⟩ (some (.unary .minus (.unary .minus (.intLit 1)))))])])])
    [(.unary .minus (.unary .minus (.intLit 1)))]) = true := by decide +kernel

-- DoubleMinusWithParentheses
example : (reportedAt 0 (overRoots (reportOver multipleUnaryVisit)
    [(.compound [(.declS [(.varD ⟨0, "b".toList⟩ (some (.unary .minus (.paren (.unary .minus (.intLit 1))))))])])])
    [(.unary .minus (.paren (.unary .minus (.intLit 1))))]) = true := by decide +kernel

-- TripleLogicalNot
example : (reportedAt 0 (overRoots (reportOver multipleUnaryVisit)
    [(.compound [(.declS [(.varD ⟨0, "b".toList⟩ (some (.unary .lnot (.unary .lnot (.unary .lnot (.intLit 1))))))])])])
    [(.unary .lnot (.unary .lnot (.unary .lnot (.intLit 1))))]) = true := by decide +kernel

-- TripleLogicalNot
example : (reportedAt 1 (overRoots (reportOver multipleUnaryVisit)
    [(.compound [(.declS [(.varD ⟨0, "b".toList⟩ (some (.unary .lnot (.unary .lnot (.unary .lnot (.intLit 1))))))])])])
    [(.unary .lnot (.unary .lnot (.intLit 1)))]) = true := by decide +kernel

-- TripleLogicalNotWithParentheses
example : (reportedAt 0 (overRoots (reportOver multipleUnaryVisit)
    [(.compound [(.declS [(.varD ⟨0, "b".toList⟩ (some (.unary .lnot (.paren (.unary .lnot (.paren (.unary .lnot (.intLit 1))))))))])])])
    [(.unary .lnot (.paren (.unary .lnot (.paren (.unary .lnot (.intLit 1))))))]) = true := by decide +kernel

-- TripleLogicalNotWithParentheses
example : (reportedAt 1 (overRoots (reportOver multipleUnaryVisit)
    [(.compound [(.declS [(.varD ⟨0, "b".toList⟩ (some (.unary .lnot (.paren (.unary .lnot (.paren (.unary .lnot (.intLit 1))))))))])])])
    [(.unary .lnot (.paren (.unary .lnot (.intLit 1))))]) = true := by decide +kernel

-- TripleNot
example : (reportedAt 0 (overRoots (reportOver multipleUnaryVisit)
    [(.compound [(.declS [(.varD ⟨0, "b".toList⟩ (some (.unary .not (.unary .not (.unary .not (.intLit 1))))))])])])
    [(.unary .not (.unary .not (.unary .not (.intLit 1))))]) = true := by decide +kernel

-- TripleNot
example : (reportedAt 1 (overRoots (reportOver multipleUnaryVisit)
    [(.compound [(.declS [(.varD ⟨0, "b".toList⟩ (some (.unary .not (.unary .not (.unary .not (.intLit 1))))))])])])
    [(.unary .not (.unary .not (.intLit 1)))]) = true := by decide +kernel

-- TripleNotWithParentheses
example : (reportedAt 0 (overRoots (reportOver multipleUnaryVisit)
    [(.compound [(.declS [(.varD ⟨0, "b".toList⟩ (some (.unary .not (.paren (.unary .not (.paren (.unary .not (.intLit 1))))))))])])])
    [(.unary .not (.paren (.unary .not (.paren (.unary .not (.intLit 1))))))]) = true := by decide +kernel

-- TripleNotWithParentheses
example : (reportedAt 1 (overRoots (reportOver multipleUnaryVisit)
    [(.compound [(.declS [(.varD ⟨0, "b".toList⟩ (some (.unary .not (.paren (.unary .not (.paren (.unary .not (.intLit 1))))))))])])])
    [(.unary .not (.paren (.unary .not (.intLit 1))))]) = true := by decide +kernel

-- TriplePlus
example : (reportedAt 0 (overRoots (reportOver multipleUnaryVisit)
    [(.compound [(.declS [(.varD ⟨0, "b".toList⟩ (some (.unary .plus (.unary .plus (.unary .plus (.intLit 1))))))])])])
    [(.unary .plus (.unary .plus (.unary .plus (.intLit 1))))]) = true := by decide +kernel

-- TriplePlus
example : (reportedAt 1 (overRoots (reportOver multipleUnaryVisit)
    [(.compound [(.declS [(.varD ⟨0, "b".toList⟩ (some (.unary .plus (.unary .plus (.unary .plus (.intLit 1))))))])])])
    [(.unary .plus (.unary .plus (.intLit 1)))]) = true := by decide +kernel

-- TriplePlusWithParentheses
example : (reportedAt 0 (overRoots (reportOver multipleUnaryVisit)
    [(.compound [(.declS [(.varD ⟨0, "b".toList⟩ (some (.unary .plus (.paren (.unary .plus (.paren (.unary .plus (.intLit 1))))))))])])])
    [(.unary .plus (.paren (.unary .plus (.paren (.unary .plus (.intLit 1))))))]) = true := by decide +kernel

-- TriplePlusWithParentheses
example : (reportedAt 1 (overRoots (reportOver multipleUnaryVisit)
    [(.compound [(.declS [(.varD ⟨0, "b".toList⟩ (some (.unary .plus (.paren (.unary .plus (.paren (.unary .plus (.intLit 1))))))))])])])
    [(.unary .plus (.paren (.unary .plus (.intLit 1))))]) = true := by decide +kernel

-- TripleMinus
example : (reportedAt 0 (overRoots (reportOver multipleUnaryVisit)
    [(.compound [(.declS [(.varD ⟨0, "b".toList⟩ (some (.unary .minus (.unary .minus (.unary .minus (.intLit 1))))))])])])
    [(.unary .minus (.unary .minus (.unary .minus (.intLit 1))))]) = true := by decide +kernel

-- TripleMinus
example : (reportedAt 1 (overRoots (reportOver multipleUnaryVisit)
    [(.compound [(.declS [(.varD ⟨0, "b".toList⟩ (some (.unary .minus (.unary .minus (.unary .minus (.intLit 1))))))])])])
    [(.unary .minus (.unary .minus (.intLit 1)))]) = true := by decide +kernel

-- TripleMinusWithParentheses
example : (reportedAt 0 (overRoots (reportOver multipleUnaryVisit)
    [(.compound [(.declS [(.varD ⟨0, "b".toList⟩ (some (.unary .minus (.paren (.unary .minus (.paren (.unary .minus (.intLit 1))))))))])])])
    [(.unary .minus (.paren (.unary .minus (.paren (.unary .minus (.intLit 1))))))]) = true := by decide +kernel

-- TripleMinusWithParentheses
example : (reportedAt 1 (overRoots (reportOver multipleUnaryVisit)
    [(.compound [(.declS [(.varD ⟨0, "b".toList⟩ (some (.unary .minus (.paren (.unary .minus (.paren (.unary .minus (.intLit 1))))))))])])])
    [(.unary .minus (.paren (.unary .minus (.intLit 1))))]) = true := by decide +kernel

-- DoubleLogicalNotWithNestedParentheses
example : (reportedAt 0 (overRoots (reportOver multipleUnaryVisit)
    [(.compound [(.declS [(.varD ⟨0, "b".toList⟩ (some (.unary .lnot (.paren (.paren (.paren (.unary .lnot (.intLit 1))))))))])])])
    [(.unary .lnot (.paren (.paren (.paren (.unary .lnot (.intLit 1))))))]) = true := by decide +kernel

-- DoubleNotWithNestedParentheses
example : (reportedAt 0 (overRoots (reportOver multipleUnaryVisit)
    [(.compound [(.declS [(.varD ⟨0, "b".toList⟩ (some (.unary .not (.paren (.paren (.paren (.unary .not (.intLit 1))))))))])])])
    [(.unary .not (.paren (.paren (.paren (.unary .not (.intLit 1))))))]) = true := by decide +kernel

-- DoublePlusWithNestedParentheses
example : (reportedAt 0 (overRoots (reportOver multipleUnaryVisit)
    [(.compound [(.declS [(.varD ⟨0, "b".toList⟩ (some (.unary .plus (.paren (.paren (.paren (.unary .plus (.intLit 1))))))))])])])
    [(.unary .plus (.paren (.paren (.paren (.unary .plus (.intLit 1))))))]) = true := by decide +kernel

-- DoubleMinusWithNestedParentheses
example : (reportedAt 0 (overRoots (reportOver multipleUnaryVisit)
    [(.compound [(.declS [(.varD ⟨0, "b".toList⟩ (some (.unary .minus (.paren (.paren (.paren (.unary .minus (.intLit 1))))))))])])])
    [(.unary .minus (.paren (.paren (.paren (.unary .minus (.intLit 1))))))]) = true := by decide +kernel

-- MixUnaryOperators
example : (reportedAt 0 (overRoots (reportOver multipleUnaryVisit)
    [(.compound [(.declS [(.varD ⟨0, "b".toList⟩ (some (.unary .minus (.paren (.unary .plus (.paren (.unary .lnot (.paren (.unary .not (.intLit 1))))))))))])])])
    [(.unary .minus (.paren (.unary .plus (.paren (.unary .lnot (.paren (.unary .not (.intLit 1))))))))]) = true := by decide +kernel

-- MixUnaryOperators
example : (reportedAt 1 (overRoots (reportOver multipleUnaryVisit)
    [(.compound [(.declS [(.varD ⟨0, "b".toList⟩ (some (.unary .minus (.paren (.unary .plus (.paren (.unary .lnot (.paren (.unary .not (.intLit 1))))))))))])])])
    [(.unary .plus (.paren (.unary .lnot (.paren (.unary .not (.intLit 1))))))]) = true := by decide +kernel

-- MixUnaryOperators
example : (reportedAt 2 (overRoots (reportOver multipleUnaryVisit)
    [(.compound [(.declS [(.varD ⟨0, "b".toList⟩ (some (.unary .minus (.paren (.unary .plus (.paren (.unary .lnot (.paren (.unary .not (.intLit 1))))))))))])])])
    [(.unary .lnot (.paren (.unary .not (.intLit 1))))]) = true := by decide +kernel

/-! ## `oclint-rules/test/basic/ReturnFromFinallyBlockRuleTest.cpp` -/

-- NoReturnFromFinallyBlock
example : ((overRoots (reportOver returnFromFinallyVisit)
    [(.compound [(.atTry (.compound [.nullS]) [(.atCatch (.compound [.nullS]))] (some (.atFinally (.compound [.nullS]))))])]).isEmpty) = true := by decide +kernel

-- ReturnFromFinallyBlock
example : (reportedAt 0 (overRoots (reportOver returnFromFinallyVisit)
    [(.compound [(.atTry (.compound [.nullS]) [(.atCatch (.compound [.nullS]))] (some (.atFinally (.compound [(.declS [(.varD ⟨0, "i".toList⟩ none)]), (.returnS none), (.declS [(.varD ⟨1, "j".toList⟩ none)])]))))])])
    [(.returnS none)]) = true := by decide +kernel

-- ReturnFromNestedBlockInsideFinallyBlock
example : (reportedAt 0 (overRoots (reportOver returnFromFinallyVisit)
    [(.compound [(.atTry (.compound [.nullS]) [(.atCatch (.compound [.nullS]))] (some (.atFinally (.compound [(.declS [(.varD ⟨0, "i".toList⟩ none)]), (.ifS none (.intLit 1) (.compound [(.returnS none)]) none), (.declS [(.varD ⟨1, "j".toList⟩ none)])]))))])])
    [(.returnS none)]) = true := by decide +kernel

/-! ## `oclint-rules/test/basic/ThrowExceptionFromFinallyBlockRuleTest.cpp` -/

-- NoThrowFromFinallyBlock
example : ((overRoots (reportOver throwFromFinallyVisit)
    [(.compound [(.atTry (.compound [.nullS]) [(.atCatch (.compound [.nullS]))] (some (.atFinally (.compound [.nullS]))))])]).isEmpty) = true := by decide +kernel

-- ThrowFromFinallyBlock
example : (reportedAt 0 (overRoots (reportOver throwFromFinallyVisit)
    [(.compound [(.atTry (.compound [.nullS]) [(.atCatch (.compound [.nullS]))] (some (.atFinally (.compound [(.declS [(.varD ⟨0, "ex".toList⟩ none)]), (.atThrow (some (.cast .implicit .lvalueToRvalue (.declRef ⟨0, "ex".toList⟩))))]))))])])
    [(.atThrow (some (.cast .implicit .lvalueToRvalue (.declRef ⟨0, "ex".toList⟩))))]) = true := by decide +kernel

-- ThrowFromNestedBlockInsideFinallyBlock
example : (reportedAt 0 (overRoots (reportOver throwFromFinallyVisit)
    [(.compound [(.atTry (.compound [.nullS]) [(.atCatch (.compound [.nullS]))] (some (.atFinally (.compound [(.declS [(.varD ⟨0, "i".toList⟩ none)]), (.declS [(.varD ⟨1, "ex".toList⟩ none)]), (.ifS none (.intLit 1) (.compound [(.atThrow (some (.cast .implicit .lvalueToRvalue (.declRef ⟨1, "ex".toList⟩))))]) none), (.declS [(.varD ⟨2, "j".toList⟩ none)])]))))])])
    [(.atThrow (some (.cast .implicit .lvalueToRvalue (.declRef ⟨1, "ex".toList⟩))))]) = true := by decide +kernel

-- NSExceptionRaiseFormat
example : (reportedAt 0 (overRoots (reportOver throwFromFinallyVisit)
    [(.compound [(.atTry (.compound [.nullS]) [(.atCatch (.compound [.nullS]))] (some (.atFinally (.compound [(.declS [(.varD ⟨0, "arg1".toList⟩ none), (.varD ⟨1, "arg2".toList⟩ none)]), (.message (some "NSException".toList) none "raise:format:".toList [(.cast .implicit .bitCast (.cast .implicit .lvalueToRvalue (.declRef ⟨0, "arg1".toList⟩))), (.cast .implicit .bitCast (.cast .implicit .lvalueToRvalue (.declRef ⟨1, "arg2".toList⟩)))])]))))])])
    [(.message (some "NSException".toList) none "raise:format:".toList [(.cast .implicit .bitCast (.cast .implicit .lvalueToRvalue (.declRef ⟨0, "arg1".toList⟩))), (.cast .implicit .bitCast (.cast .implicit .lvalueToRvalue (.declRef ⟨1, "arg2".toList⟩)))])]) = true := by decide +kernel

-- NSExceptionRaiseFormatArguments
example : (reportedAt 0 (overRoots (reportOver throwFromFinallyVisit)
    [(.compound [(.atTry (.compound [.nullS]) [(.atCatch (.compound [.nullS]))] (some (.atFinally (.compound [(.declS [(.varD ⟨0, "arg1".toList⟩ none), (.varD ⟨1, "arg2".toList⟩ none)]), (.declS [(.varD ⟨2, "argList".toList⟩ none)]), (.message (some "NSException".toList) none "raise:format:arguments:".toList [(.cast .implicit .bitCast (.cast .implicit .lvalueToRvalue (.declRef ⟨0, "arg1".toList⟩))), (.cast .implicit .bitCast (.cast .implicit .lvalueToRvalue (.declRef ⟨1, "arg2".toList⟩))), (.cast .implicit .lvalueToRvalue (.declRef ⟨2, "argList".toList⟩))])]))))])])
    [(.message (some "NSException".toList) none "raise:format:arguments:".toList [(.cast .implicit .bitCast (.cast .implicit .lvalueToRvalue (.declRef ⟨0, "arg1".toList⟩))), (.cast .implicit .bitCast (.cast .implicit .lvalueToRvalue (.declRef ⟨1, "arg2".toList⟩))), (.cast .implicit .lvalueToRvalue (.declRef ⟨2, "argList".toList⟩))])]) = true := by decide +kernel

-- NSExceptionRaise
example : (reportedAt 0 (overRoots (reportOver throwFromFinallyVisit)
    [(.compound [(.atTry (.compound [.nullS]) [(.atCatch (.compound [.nullS]))] (some (.atFinally (.compound [(.ifS none (.intLit 1) (.compound [(.declS [(.varD ⟨0, "arg1".toList⟩ none), (.varD ⟨1, "arg2".toList⟩ none)]), (.declS [(.varD ⟨2, "ex".toList⟩ (some (.message (some "NSException".toList) none "new".toList [])))]), (.message (some "NSException".toList) (some (.cast .implicit .lvalueToRvalue (.declRef ⟨2, "ex".toList⟩))) "raise".toList [])]) none)]))))])])
    [(.message (some "NSException".toList) (some (.cast .implicit .lvalueToRvalue (.declRef ⟨2, "ex".toList⟩))) "raise".toList [])]) = true := by decide +kernel

-- NSExceptionOtherInstanceMethod
example : ((overRoots (reportOver throwFromFinallyVisit)
    [(.compound [(.atTry (.compound [.nullS]) [(.atCatch (.compound [.nullS]))] (some (.atFinally (.compound [(.ifS none (.intLit 1) (.compound [(.declS [(.varD ⟨0, "arg1".toList⟩ none), (.varD ⟨1, "arg2".toList⟩ none)]), (.declS [(.varD ⟨2, "ex".toList⟩ (some (.message (some "NSException".toList) none "new".toList [])))]), (.message (some "NSException".toList) (some (.cast .implicit .lvalueToRvalue (.declRef ⟨2, "ex".toList⟩))) "doNotRaise".toList [])]) none)]))))])]).isEmpty) = true := by decide +kernel

-- NSExceptionOtherClassMethod
example : ((overRoots (reportOver throwFromFinallyVisit)
    [(.compound [(.atTry (.compound [.nullS]) [(.atCatch (.compound [.nullS]))] (some (.atFinally (.compound [(.declS [(.varD ⟨0, "arg1".toList⟩ none), (.varD ⟨1, "arg2".toList⟩ none)]), (.declS [(.varD ⟨2, "argList".toList⟩ none)]), (.message (some "NSException".toList) none "raise:format:argument:".toList [(.cast .implicit .bitCast (.cast .implicit .lvalueToRvalue (.declRef ⟨0, "arg1".toList⟩))), (.cast .implicit .bitCast (.cast .implicit .lvalueToRvalue (.declRef ⟨1, "arg2".toList⟩))), (.cast .implicit .lvalueToRvalue (.declRef ⟨2, "argList".toList⟩))])]))))])]).isEmpty) = true := by decide +kernel

-- InstanceRaiseFromOtherClass
example : ((overRoots (reportOver throwFromFinallyVisit)
    [(.compound [(.atTry (.compound [.nullS]) [(.atCatch (.compound [.nullS]))] (some (.atFinally (.compound [(.ifS none (.intLit 1) (.compound [(.declS [(.varD ⟨0, "arg1".toList⟩ none), (.varD ⟨1, "arg2".toList⟩ none)]), (.declS [(.varD ⟨2, "ex".toList⟩ (some (.message (some "NSNotException".toList) none "new".toList [])))]), (.message (some "NSNotException".toList) (some (.cast .implicit .lvalueToRvalue (.declRef ⟨2, "ex".toList⟩))) "raise".toList [])]) none)]))))])]).isEmpty) = true := by decide +kernel

-- ClassRaiseFromOtherClass
example : ((overRoots (reportOver throwFromFinallyVisit)
    [(.compound [(.atTry (.compound [.nullS]) [(.atCatch (.compound [.nullS]))] (some (.atFinally (.compound [(.declS [(.varD ⟨0, "arg1".toList⟩ none), (.varD ⟨1, "arg2".toList⟩ none)]), (.declS [(.varD ⟨2, "argList".toList⟩ none)]), (.message (some "NSNotException".toList) none "raise:format:arguments:".toList [(.cast .implicit .bitCast (.cast .implicit .lvalueToRvalue (.declRef ⟨0, "arg1".toList⟩))), (.cast .implicit .bitCast (.cast .implicit .lvalueToRvalue (.declRef ⟨1, "arg2".toList⟩))), (.cast .implicit .lvalueToRvalue (.declRef ⟨2, "argList".toList⟩))])]))))])]).isEmpty) = true := by decide +kernel

end Oclint
