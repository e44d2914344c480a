import Verif.Tests.Support

/-!
# Tests of the repository, redundant

Written by `tools/repotests.py`; see `Verif/Tests/Support.lean`.
-/

namespace Oclint

set_option linter.all false

/-! ## `oclint-rules/test/redundant/RedundantConditionalOperatorRuleTest.cpp` -/

-- GoodConditionalOperator
example : ((overRoots (reportOver redundantConditionalVisit)
    [(.compound [(.declS [(.varD ⟨0, "c".toList⟩ (some (.condOp (.binary .gt (.cast .implicit .lvalueToRvalue (.declRef ⟨1, "a".toList⟩)) (.cast .implicit .lvalueToRvalue (.declRef ⟨2, "b".toList⟩))) (.cast .implicit .lvalueToRvalue (.declRef ⟨1, "a".toList⟩)) (.cast .implicit .lvalueToRvalue (.declRef ⟨2, "b".toList⟩)))))])])]).isEmpty) = true := by decide +kernel

-- CppTrueExprIsTrueAndFalseExprIsFalse
example : (reportedAll (overRoots (reportOver redundantConditionalVisit)
    [(.compound [(.declS [(.varD ⟨0, "c".toList⟩ (some (.condOp (.binary .gt (.cast .implicit .lvalueToRvalue (.declRef ⟨1, "a".toList⟩)) (.cast .implicit .lvalueToRvalue (.declRef ⟨2, "b".toList⟩))) (.boolLit true) (.boolLit false))))])])])
    [[(.condOp (.binary .gt (.cast .implicit .lvalueToRvalue (.declRef ⟨1, "a".toList⟩)) (.cast .implicit .lvalueToRvalue (.declRef ⟨2, "b".toList⟩))) (.boolLit true) (.boolLit false))]]) = true := by decide +kernel

-- CppTrueExprIsFalseAndFalseExprIsTrue
example : (reportedAll (overRoots (reportOver redundantConditionalVisit)
    [(.compound [(.declS [(.varD ⟨0, "c".toList⟩ (some (.condOp (.binary .gt (.cast .implicit .lvalueToRvalue (.declRef ⟨1, "a".toList⟩)) (.cast .implicit .lvalueToRvalue (.declRef ⟨2, "b".toList⟩))) (.boolLit false) (.boolLit true))))])])])
    [[(.condOp (.binary .gt (.cast .implicit .lvalueToRvalue (.declRef ⟨1, "a".toList⟩)) (.cast .implicit .lvalueToRvalue (.declRef ⟨2, "b".toList⟩))) (.boolLit false) (.boolLit true))]]) = true := by decide +kernel

-- ObjCTrueExprIsYesAndFalseExprIsNo
example : (reportedAll (overRoots (reportOver redundantConditionalVisit)
    [(.compound [(.declS [(.varD ⟨0, "c".toList⟩ (some (.cast .implicit .other (.condOp (.binary .gt (.cast .implicit .lvalueToRvalue (.declRef ⟨1, "a".toList⟩)) (.cast .implicit .lvalueToRvalue (.declRef ⟨2, "b".toList⟩))) (.cast .implicit .other (.cast .cstyle .other (.intLit 1))) (.cast .implicit .other (.cast .cstyle .other (.intLit 0)))))))])])])
    [[(.condOp (.binary .gt (.cast .implicit .lvalueToRvalue (.declRef ⟨1, "a".toList⟩)) (.cast .implicit .lvalueToRvalue (.declRef ⟨2, "b".toList⟩))) (.cast .implicit .other (.cast .cstyle .other (.intLit 1))) (.cast .implicit .other (.cast .cstyle .other (.intLit 0)))), (.cast .implicit .other (.condOp (.binary .gt (.cast .implicit .lvalueToRvalue (.declRef ⟨1, "a".toList⟩)) (.cast .implicit .lvalueToRvalue (.declRef ⟨2, "b".toList⟩))) (.cast .implicit .other (.cast .cstyle .other (.intLit 1))) (.cast .implicit .other (.cast .cstyle .other (.intLit 0)))))]]) = true := by decide +kernel

-- ObjCTrueExprIsNoAndFalseExprIsYes
example : (reportedAll (overRoots (reportOver redundantConditionalVisit)
    [(.compound [(.declS [(.varD ⟨0, "c".toList⟩ (some (.cast .implicit .other (.condOp (.binary .gt (.cast .implicit .lvalueToRvalue (.declRef ⟨1, "a".toList⟩)) (.cast .implicit .lvalueToRvalue (.declRef ⟨2, "b".toList⟩))) (.cast .implicit .other (.cast .cstyle .other (.intLit 0))) (.cast .implicit .other (.cast .cstyle .other (.intLit 1)))))))])])])
    [[(.condOp (.binary .gt (.cast .implicit .lvalueToRvalue (.declRef ⟨1, "a".toList⟩)) (.cast .implicit .lvalueToRvalue (.declRef ⟨2, "b".toList⟩))) (.cast .implicit .other (.cast .cstyle .other (.intLit 0))) (.cast .implicit .other (.cast .cstyle .other (.intLit 1)))), (.cast .implicit .other (.condOp (.binary .gt (.cast .implicit .lvalueToRvalue (.declRef ⟨1, "a".toList⟩)) (.cast .implicit .lvalueToRvalue (.declRef ⟨2, "b".toList⟩))) (.cast .implicit .other (.cast .cstyle .other (.intLit 0))) (.cast .implicit .other (.cast .cstyle .other (.intLit 1)))))]]) = true := by decide +kernel

-- ObjCTrueExprIsYesAndFalseExprIsNo_HasFeatureObjCBOOL
example : (reportedAll (overRoots (reportOver redundantConditionalVisit)
    [(.compound [(.declS [(.varD ⟨0, "c".toList⟩ (some (.cast .implicit .other (.condOp (.binary .gt (.cast .implicit .lvalueToRvalue (.declRef ⟨1, "a".toList⟩)) (.cast .implicit .lvalueToRvalue (.declRef ⟨2, "b".toList⟩))) (.cast .implicit .other (.objcBoolLit true)) (.cast .implicit .other (.objcBoolLit false))))))])])])
    [[(.condOp (.binary .gt (.cast .implicit .lvalueToRvalue (.declRef ⟨1, "a".toList⟩)) (.cast .implicit .lvalueToRvalue (.declRef ⟨2, "b".toList⟩))) (.cast .implicit .other (.objcBoolLit true)) (.cast .implicit .other (.objcBoolLit false))), (.cast .implicit .other (.condOp (.binary .gt (.cast .implicit .lvalueToRvalue (.declRef ⟨1, "a".toList⟩)) (.cast .implicit .lvalueToRvalue (.declRef ⟨2, "b".toList⟩))) (.cast .implicit .other (.objcBoolLit true)) (.cast .implicit .other (.objcBoolLit false))))]]) = true := by decide +kernel

-- ObjCTrueExprIsNoAndFalseExprIsYes_HasFeatureObjCBOOL
example : (reportedAll (overRoots (reportOver redundantConditionalVisit)
    [(.compound [(.declS [(.varD ⟨0, "c".toList⟩ (some (.cast .implicit .other (.condOp (.binary .gt (.cast .implicit .lvalueToRvalue (.declRef ⟨1, "a".toList⟩)) (.cast .implicit .lvalueToRvalue (.declRef ⟨2, "b".toList⟩))) (.cast .implicit .other (.objcBoolLit false)) (.cast .implicit .other (.objcBoolLit true))))))])])])
    [[(.condOp (.binary .gt (.cast .implicit .lvalueToRvalue (.declRef ⟨1, "a".toList⟩)) (.cast .implicit .lvalueToRvalue (.declRef ⟨2, "b".toList⟩))) (.cast .implicit .other (.objcBoolLit false)) (.cast .implicit .other (.objcBoolLit true))), (.cast .implicit .other (.condOp (.binary .gt (.cast .implicit .lvalueToRvalue (.declRef ⟨1, "a".toList⟩)) (.cast .implicit .lvalueToRvalue (.declRef ⟨2, "b".toList⟩))) (.cast .implicit .other (.objcBoolLit false)) (.cast .implicit .other (.objcBoolLit true))))]]) = true := by decide +kernel

-- SameIntegerLiteral
example : (reportedAll (overRoots (reportOver redundantConditionalVisit)
    [(.compound [(.declS [(.varD ⟨0, "c".toList⟩ (some (.condOp (.binary .gt (.cast .implicit .lvalueToRvalue (.declRef ⟨1, "a".toList⟩)) (.cast .implicit .lvalueToRvalue (.declRef ⟨2, "b".toList⟩))) (.intLit 1) (.intLit 1))))])])])
    [[(.condOp (.binary .gt (.cast .implicit .lvalueToRvalue (.declRef ⟨1, "a".toList⟩)) (.cast .implicit .lvalueToRvalue (.declRef ⟨2, "b".toList⟩))) (.intLit 1) (.intLit 1))]]) = true := by decide +kernel

-- DifferentIntegerLiteral
example : ((overRoots (reportOver redundantConditionalVisit)
    [(.compound [(.declS [(.varD ⟨0, "c".toList⟩ (some (.condOp (.binary .gt (.cast .implicit .lvalueToRvalue (.declRef ⟨1, "a".toList⟩)) (.cast .implicit .lvalueToRvalue (.declRef ⟨2, "b".toList⟩))) (.intLit 1) (.intLit 2))))])])]).isEmpty) = true := by decide +kernel

-- SameFloatingLiteral
example : (reportedAll (overRoots (reportOver redundantConditionalVisit)
    [(.compound [(.declS [(.varD ⟨0, "f".toList⟩ (some (.condOp (.binary .gt (.cast .implicit .lvalueToRvalue (.declRef ⟨1, "a".toList⟩)) (.cast .implicit .lvalueToRvalue (.declRef ⟨2, "b".toList⟩))) (.floatLit 1) (.floatLit 1))))])])])
    [[(.condOp (.binary .gt (.cast .implicit .lvalueToRvalue (.declRef ⟨1, "a".toList⟩)) (.cast .implicit .lvalueToRvalue (.declRef ⟨2, "b".toList⟩))) (.floatLit 1) (.floatLit 1))]]) = true := by decide +kernel

-- DifferentFloatingLiteralSameValue
example : (reportedAll (overRoots (reportOver redundantConditionalVisit)
    [(.compound [(.declS [(.varD ⟨0, "f".toList⟩ (some (.cast .implicit .other (.condOp (.binary .gt (.cast .implicit .lvalueToRvalue (.declRef ⟨1, "a".toList⟩)) (.cast .implicit .lvalueToRvalue (.declRef ⟨2, "b".toList⟩))) (.floatLit 1) (.floatLit 1)))))])])])
    [[(.condOp (.binary .gt (.cast .implicit .lvalueToRvalue (.declRef ⟨1, "a".toList⟩)) (.cast .implicit .lvalueToRvalue (.declRef ⟨2, "b".toList⟩))) (.floatLit 1) (.floatLit 1)), (.cast .implicit .other (.condOp (.binary .gt (.cast .implicit .lvalueToRvalue (.declRef ⟨1, "a".toList⟩)) (.cast .implicit .lvalueToRvalue (.declRef ⟨2, "b".toList⟩))) (.floatLit 1) (.floatLit 1)))]]) = true := by decide +kernel

-- DifferentFloatingLiteralDifferentValue
example : ((overRoots (reportOver redundantConditionalVisit)
    [(.compound [(.declS [(.varD ⟨0, "f".toList⟩ (some (.cast .implicit .other (.condOp (.binary .gt (.cast .implicit .lvalueToRvalue (.declRef ⟨1, "a".toList⟩)) (.cast .implicit .lvalueToRvalue (.declRef ⟨2, "b".toList⟩))) (.floatLit 1) (.floatLit 54210)))))])])]).isEmpty) = true := by decide +kernel

-- SameCharacterLiteral
example : (reportedAll (overRoots (reportOver redundantConditionalVisit)
    [(.compound [(.declS [(.varD ⟨0, "c".toList⟩ (some (.cast .implicit .other (.condOp (.binary .gt (.cast .implicit .lvalueToRvalue (.declRef ⟨1, "a".toList⟩)) (.cast .implicit .lvalueToRvalue (.declRef ⟨2, "b".toList⟩))) (.charLit 99) (.charLit 99)))))])])])
    [[(.condOp (.binary .gt (.cast .implicit .lvalueToRvalue (.declRef ⟨1, "a".toList⟩)) (.cast .implicit .lvalueToRvalue (.declRef ⟨2, "b".toList⟩))) (.charLit 99) (.charLit 99)), (.cast .implicit .other (.condOp (.binary .gt (.cast .implicit .lvalueToRvalue (.declRef ⟨1, "a".toList⟩)) (.cast .implicit .lvalueToRvalue (.declRef ⟨2, "b".toList⟩))) (.charLit 99) (.charLit 99)))]]) = true := by decide +kernel

-- DifferentCharacterLiteral
example : ((overRoots (reportOver redundantConditionalVisit)
    [(.compound [(.declS [(.varD ⟨0, "c".toList⟩ (some (.cast .implicit .other (.condOp (.binary .gt (.cast .implicit .lvalueToRvalue (.declRef ⟨1, "a".toList⟩)) (.cast .implicit .lvalueToRvalue (.declRef ⟨2, "b".toList⟩))) (.charLit 99) (.charLit 115)))))])])]).isEmpty) = true := by decide +kernel

-- SameStringLiteral
example : (reportedAll (overRoots (reportOver redundantConditionalVisit)
    [(.compound [(.declS [(.varD ⟨0, "c".toList⟩ (some (.condOp (.binary .gt (.cast .implicit .lvalueToRvalue (.declRef ⟨1, "a".toList⟩)) (.cast .implicit .lvalueToRvalue (.declRef ⟨2, "b".toList⟩))) (.cast .implicit .other (.strLit "a".toList)) (.cast .implicit .other (.strLit "a".toList)))))])])])
    [[(.condOp (.binary .gt (.cast .implicit .lvalueToRvalue (.declRef ⟨1, "a".toList⟩)) (.cast .implicit .lvalueToRvalue (.declRef ⟨2, "b".toList⟩))) (.cast .implicit .other (.strLit "a".toList)) (.cast .implicit .other (.strLit "a".toList)))]]) = true := by decide +kernel

-- SameEmptyStringLiteral
example : (reportedAll (overRoots (reportOver redundantConditionalVisit)
    [(.compound [(.declS [(.varD ⟨0, "c".toList⟩ (some (.condOp (.binary .gt (.cast .implicit .lvalueToRvalue (.declRef ⟨1, "a".toList⟩)) (.cast .implicit .lvalueToRvalue (.declRef ⟨2, "b".toList⟩))) (.cast .implicit .other (.strLit "".toList)) (.cast .implicit .other (.strLit "".toList)))))])])])
    [[(.condOp (.binary .gt (.cast .implicit .lvalueToRvalue (.declRef ⟨1, "a".toList⟩)) (.cast .implicit .lvalueToRvalue (.declRef ⟨2, "b".toList⟩))) (.cast .implicit .other (.strLit "".toList)) (.cast .implicit .other (.strLit "".toList)))]]) = true := by decide +kernel

-- DifferentStringLiteral
example : ((overRoots (reportOver redundantConditionalVisit)
    [(.compound [(.declS [(.varD ⟨0, "c".toList⟩ (some (.condOp (.binary .gt (.cast .implicit .lvalueToRvalue (.declRef ⟨1, "a".toList⟩)) (.cast .implicit .lvalueToRvalue (.declRef ⟨2, "b".toList⟩))) (.cast .implicit .other (.strLit "a".toList)) (.cast .implicit .other (.strLit "b".toList)))))])])]).isEmpty) = true := by decide +kernel

-- WithOneEmptyStringLiteral
example : ((overRoots (reportOver redundantConditionalVisit)
    [(.compound [(.declS [(.varD ⟨0, "c".toList⟩ (some (.condOp (.binary .gt (.cast .implicit .lvalueToRvalue (.declRef ⟨1, "a".toList⟩)) (.cast .implicit .lvalueToRvalue (.declRef ⟨2, "b".toList⟩))) (.cast .implicit .other (.strLit "a".toList)) (.cast .implicit .other (.strLit "".toList)))))])])]).isEmpty) = true := by decide +kernel

-- CppSameBoolean
example : (reportedAll (overRoots (reportOver redundantConditionalVisit)
    [(.compound [(.declS [(.varD ⟨0, "c".toList⟩ (some (.condOp (.binary .gt (.cast .implicit .lvalueToRvalue (.declRef ⟨1, "a".toList⟩)) (.cast .implicit .lvalueToRvalue (.declRef ⟨2, "b".toList⟩))) (.boolLit true) (.boolLit true))))])])])
    [[(.condOp (.binary .gt (.cast .implicit .lvalueToRvalue (.declRef ⟨1, "a".toList⟩)) (.cast .implicit .lvalueToRvalue (.declRef ⟨2, "b".toList⟩))) (.boolLit true) (.boolLit true))]]) = true := by decide +kernel

-- ObjCSameBoolean
example : (reportedAll (overRoots (reportOver redundantConditionalVisit)
    [(.compound [(.declS [(.varD ⟨0, "c".toList⟩ (some (.cast .implicit .other (.condOp (.binary .gt (.cast .implicit .lvalueToRvalue (.declRef ⟨1, "a".toList⟩)) (.cast .implicit .lvalueToRvalue (.declRef ⟨2, "b".toList⟩))) (.cast .implicit .other (.cast .cstyle .other (.intLit 0))) (.cast .implicit .other (.cast .cstyle .other (.intLit 0)))))))])])])
    [[(.condOp (.binary .gt (.cast .implicit .lvalueToRvalue (.declRef ⟨1, "a".toList⟩)) (.cast .implicit .lvalueToRvalue (.declRef ⟨2, "b".toList⟩))) (.cast .implicit .other (.cast .cstyle .other (.intLit 0))) (.cast .implicit .other (.cast .cstyle .other (.intLit 0)))), (.cast .implicit .other (.condOp (.binary .gt (.cast .implicit .lvalueToRvalue (.declRef ⟨1, "a".toList⟩)) (.cast .implicit .lvalueToRvalue (.declRef ⟨2, "b".toList⟩))) (.cast .implicit .other (.cast .cstyle .other (.intLit 0))) (.cast .implicit .other (.cast .cstyle .other (.intLit 0)))))]]) = true := by decide +kernel

-- SameVariable
example : (reportedAll (overRoots (reportOver redundantConditionalVisit)
    [(.compound [(.declS [(.varD ⟨0, "c".toList⟩ (some (.condOp (.binary .gt (.cast .implicit .lvalueToRvalue (.declRef ⟨1, "a".toList⟩)) (.cast .implicit .lvalueToRvalue (.declRef ⟨2, "b".toList⟩))) (.cast .implicit .lvalueToRvalue (.declRef ⟨3, "d".toList⟩)) (.cast .implicit .lvalueToRvalue (.declRef ⟨3, "d".toList⟩)))))])])])
    [[(.condOp (.binary .gt (.cast .implicit .lvalueToRvalue (.declRef ⟨1, "a".toList⟩)) (.cast .implicit .lvalueToRvalue (.declRef ⟨2, "b".toList⟩))) (.cast .implicit .lvalueToRvalue (.declRef ⟨3, "d".toList⟩)) (.cast .implicit .lvalueToRvalue (.declRef ⟨3, "d".toList⟩)))]]) = true := by decide +kernel

-- DifferentVariable
example : ((overRoots (reportOver redundantConditionalVisit)
    [(.compound [(.declS [(.varD ⟨0, "c".toList⟩ (some (.condOp (.binary .gt (.cast .implicit .lvalueToRvalue (.declRef ⟨1, "a".toList⟩)) (.cast .implicit .lvalueToRvalue (.declRef ⟨2, "b".toList⟩))) (.cast .implicit .lvalueToRvalue (.declRef ⟨3, "d".toList⟩)) (.cast .implicit .lvalueToRvalue (.declRef ⟨4, "e".toList⟩)))))])])]).isEmpty) = true := by decide +kernel

/-! ## `oclint-rules/test/redundant/RedundantIfStatementRuleTest.cpp` -/

-- GoodIfStatement
example : ((overRoots (reportOver redundantIfVisit)
    [(.compound [(.ifS none (.intLit 1) (.compound [.nullS]) none)])]).isEmpty) = true := by decide +kernel

-- CPPTrueThenAndFalseElse
example : (reportedAll (overRoots (reportOver redundantIfVisit)
    [(.compound [(.ifS none (.cast .implicit .other (.intLit 1)) (.compound [(.returnS (some (.boolLit true)))]) (some (.returnS (some (.boolLit false)))))])])
    [[(.ifS none (.cast .implicit .other (.intLit 1)) (.compound [(.returnS (some (.boolLit true)))]) (some (.returnS (some (.boolLit false)))))]]) = true := by decide +kernel

-- CPPFalseThenAndTrueElse
example : (reportedAll (overRoots (reportOver redundantIfVisit)
    [(.compound [(.ifS none (.cast .implicit .other (.intLit 1)) (.returnS (some (.boolLit false))) (some (.compound [(.returnS (some (.boolLit true)))])))])])
    [[(.ifS none (.cast .implicit .other (.intLit 1)) (.returnS (some (.boolLit false))) (some (.compound [(.returnS (some (.boolLit true)))])))]]) = true := by decide +kernel

-- CPPBooleanDeclaration
example : (reportedAll (overRoots (reportOver redundantIfVisit)
    [(.compound [(.declS [(.varD ⟨0, "b".toList⟩ none)]), (.ifS none (.cast .implicit .other (.intLit 1)) (.compound [(.binary .assign (.declRef ⟨0, "b".toList⟩) (.boolLit true))]) (some (.binary .assign (.declRef ⟨0, "b".toList⟩) (.boolLit false))))])])
    [[(.ifS none (.cast .implicit .other (.intLit 1)) (.compound [(.binary .assign (.declRef ⟨0, "b".toList⟩) (.boolLit true))]) (some (.binary .assign (.declRef ⟨0, "b".toList⟩) (.boolLit false))))]]) = true := by decide +kernel

-- ObjCYesThenAndNoElse
example : (reportedAll (overRoots (reportOver redundantIfVisit)
    [(.compound [(.ifS none (.intLit 1) (.compound [(.returnS (some (.cast .cstyle .other (.intLit 1))))]) (some (.returnS (some (.cast .cstyle .other (.intLit 0))))))])])
    [[(.ifS none (.intLit 1) (.compound [(.returnS (some (.cast .cstyle .other (.intLit 1))))]) (some (.returnS (some (.cast .cstyle .other (.intLit 0))))))]]) = true := by decide +kernel

-- ObjCNoThenAndYesElse
example : (reportedAll (overRoots (reportOver redundantIfVisit)
    [(.compound [(.ifS none (.intLit 1) (.returnS (some (.cast .cstyle .other (.intLit 0)))) (some (.compound [(.returnS (some (.cast .cstyle .other (.intLit 1))))])))])])
    [[(.ifS none (.intLit 1) (.returnS (some (.cast .cstyle .other (.intLit 0)))) (some (.compound [(.returnS (some (.cast .cstyle .other (.intLit 1))))])))]]) = true := by decide +kernel

-- ObjCBOOLDeclaration
example : (reportedAll (overRoots (reportOver redundantIfVisit)
    [(.compound [(.declS [(.varD ⟨0, "b".toList⟩ none)]), (.ifS none (.intLit 1) (.compound [(.binary .assign (.declRef ⟨0, "b".toList⟩) (.cast .cstyle .other (.intLit 1)))]) (some (.binary .assign (.declRef ⟨0, "b".toList⟩) (.cast .cstyle .other (.intLit 0)))))])])
    [[(.ifS none (.intLit 1) (.compound [(.binary .assign (.declRef ⟨0, "b".toList⟩) (.cast .cstyle .other (.intLit 1)))]) (some (.binary .assign (.declRef ⟨0, "b".toList⟩) (.cast .cstyle .other (.intLit 0)))))]]) = true := by decide +kernel

-- ObjCYesThenAndNoElse_HasFeatureObjCBOOL
example : (reportedAll (overRoots (reportOver redundantIfVisit)
    [(.compound [(.ifS none (.intLit 1) (.compound [(.returnS (some (.objcBoolLit true)))]) (some (.returnS (some (.objcBoolLit false)))))])])
    [[(.ifS none (.intLit 1) (.compound [(.returnS (some (.objcBoolLit true)))]) (some (.returnS (some (.objcBoolLit false)))))]]) = true := by decide +kernel

-- ObjCNoThenAndYesElse_HasFeatureObjCBOOL
example : (reportedAll (overRoots (reportOver redundantIfVisit)
    [(.compound [(.ifS none (.intLit 1) (.returnS (some (.objcBoolLit false))) (some (.compound [(.returnS (some (.objcBoolLit true)))])))])])
    [[(.ifS none (.intLit 1) (.returnS (some (.objcBoolLit false))) (some (.compound [(.returnS (some (.objcBoolLit true)))])))]]) = true := by decide +kernel

-- ObjCBOOLDeclaration_HasFeatureObjCBOOL
example : (reportedAll (overRoots (reportOver redundantIfVisit)
    [(.compound [(.declS [(.varD ⟨0, "b".toList⟩ none)]), (.ifS none (.intLit 1) (.compound [(.binary .assign (.declRef ⟨0, "b".toList⟩) (.objcBoolLit true))]) (some (.binary .assign (.declRef ⟨0, "b".toList⟩) (.objcBoolLit false))))])])
    [[(.ifS none (.intLit 1) (.compound [(.binary .assign (.declRef ⟨0, "b".toList⟩) (.objcBoolLit true))]) (some (.binary .assign (.declRef ⟨0, "b".toList⟩) (.objcBoolLit false))))]]) = true := by decide +kernel

-- SameBooleanReturn
example : ((overRoots (reportOver redundantIfVisit)
    [(.compound [(.declS [(.varD ⟨0, "b".toList⟩ none)]), (.ifS none (.intLit 1) (.compound [(.binary .assign (.declRef ⟨0, "b".toList⟩) (.cast .cstyle .other (.intLit 1)))]) (some (.binary .assign (.declRef ⟨0, "b".toList⟩) (.cast .cstyle .other (.intLit 1)))))])]).isEmpty) = true := by decide +kernel

-- OneThenAndZeroElse
example : ((overRoots (reportOver redundantIfVisit)
    [(.compound [(.ifS none (.intLit 1) (.compound [(.returnS (some (.intLit 1)))]) (some (.returnS (some (.intLit 0)))))])]).isEmpty) = true := by decide +kernel

-- ZeroThenAndOneElse
example : ((overRoots (reportOver redundantIfVisit)
    [(.compound [(.ifS none (.intLit 1) (.returnS (some (.intLit 0))) (some (.compound [(.returnS (some (.intLit 1)))])))])]).isEmpty) = true := by decide +kernel

-- CIntDeclaration
example : ((overRoots (reportOver redundantIfVisit)
    [(.compound [(.declS [(.varD ⟨0, "b".toList⟩ none)]), (.ifS none (.intLit 1) (.compound [(.binary .assign (.declRef ⟨0, "b".toList⟩) (.intLit 6))]) (some (.binary .assign (.declRef ⟨0, "b".toList⟩) (.intLit 0))))])]).isEmpty) = true := by decide +kernel

/-! ## `oclint-rules/test/redundant/RedundantLocalVariableRuleTest.cpp` -/

-- NoRedundantLocalVariable
example : ((overRoots (reportOver redundantLocalVisit)
    [(.compound [(.declS [(.varD ⟨0, "i".toList⟩ (some (.intLit 1)))]), (.unary .postInc (.declRef ⟨0, "i".toList⟩)), (.returnS (some (.intLit 0)))])]).isEmpty) = true := by decide +kernel

-- DeclVarFollowedByReturnStmt
example : (reportedAll (overRoots (reportOver redundantLocalVisit)
    [(.compound [(.declS [(.varD ⟨0, "i".toList⟩ (some (.intLit 1)))]), (.returnS (some (.cast .implicit .lvalueToRvalue (.declRef ⟨0, "i".toList⟩))))])])
    [[(.varD ⟨0, "i".toList⟩ (some (.intLit 1)))]]) = true := by decide +kernel

-- DeclVarFollowedByReturnStmtInANestedCompoundStmt
example : (reportedAll (overRoots (reportOver redundantLocalVisit)
    [(.compound [(.ifS none (.intLit 1) (.compound [(.declS [(.varD ⟨0, "i".toList⟩ (some (.intLit 1)))]), (.returnS (some (.cast .implicit .lvalueToRvalue (.declRef ⟨0, "i".toList⟩))))]) none), (.returnS (some (.intLit 0)))])])
    [[(.varD ⟨0, "i".toList⟩ (some (.intLit 1)))]]) = true := by decide +kernel

/-! ## `oclint-rules/test/redundant/RedundantNilCheckRuleTest.cpp` -/

-- ObjC_CorrectNullEqCheck
example : ((overRoots (reportOver redundantNilVisit)
    [(.compound [(.returnS (some (.cast .cstyle .other (.intLit 1))))]),
    (.compound [(.ifS none (.message (some "A".toList) (some (.cast .implicit .lvalueToRvalue (.declRef ⟨0, "obj1".toList⟩))) "isEqualTo:".toList [(.cast .implicit .bitCast (.cast .implicit .lvalueToRvalue (.declRef ⟨1, "obj2".toList⟩)))]) (.compound [.nullS]) none)])]).isEmpty) = true := by decide +kernel

-- ObjC_EzButRedundantNullEqCheck
example : (reportedAll (overRoots (reportOver redundantNilVisit)
    [(.compound [(.returnS (some (.cast .cstyle .other (.intLit 1))))]),
    (.compound [(.ifS none (.binary .land (.cast .implicit .lvalueToRvalue (.declRef ⟨0, "obj1".toList⟩)) (.cast .implicit .other (.message (some "A".toList) (some (.cast .implicit .lvalueToRvalue (.declRef ⟨0, "obj1".toList⟩))) "isEqualTo:".toList [(.cast .implicit .bitCast (.cast .implicit .lvalueToRvalue (.declRef ⟨1, "obj2".toList⟩)))]))) (.compound [.nullS]) none)])])
    [[(.binary .land (.cast .implicit .lvalueToRvalue (.declRef ⟨0, "obj1".toList⟩)) (.cast .implicit .other (.message (some "A".toList) (some (.cast .implicit .lvalueToRvalue (.declRef ⟨0, "obj1".toList⟩))) "isEqualTo:".toList [(.cast .implicit .bitCast (.cast .implicit .lvalueToRvalue (.declRef ⟨1, "obj2".toList⟩)))])))]]) = true := by decide +kernel

-- ObjC_ExplicitButRedundantNullEqCheck
example : (reportedAll (overRoots (reportOver redundantNilVisit)
    [(.compound [(.returnS (some (.cast .cstyle .other (.intLit 1))))]),
    (.compound [(.ifS none (.binary .land (.binary .ne (.cast .implicit .lvalueToRvalue (.declRef ⟨0, "obj1".toList⟩)) (.cast .implicit .bitCast (.cast .cstyle .nullToPointer (.intLit 0)))) (.cast .implicit .other (.message (some "A".toList) (some (.cast .implicit .lvalueToRvalue (.declRef ⟨0, "obj1".toList⟩))) "isEqualTo:".toList [(.cast .implicit .bitCast (.cast .implicit .lvalueToRvalue (.declRef ⟨1, "obj2".toList⟩)))]))) (.compound [.nullS]) none)])])
    [[(.binary .land (.binary .ne (.cast .implicit .lvalueToRvalue (.declRef ⟨0, "obj1".toList⟩)) (.cast .implicit .bitCast (.cast .cstyle .nullToPointer (.intLit 0)))) (.cast .implicit .other (.message (some "A".toList) (some (.cast .implicit .lvalueToRvalue (.declRef ⟨0, "obj1".toList⟩))) "isEqualTo:".toList [(.cast .implicit .bitCast (.cast .implicit .lvalueToRvalue (.declRef ⟨1, "obj2".toList⟩)))])))]]) = true := by decide +kernel

-- ObjC_EzNullNeCheck
example : ((overRoots (reportOver redundantNilVisit)
    [(.compound [(.returnS (some (.cast .cstyle .other (.intLit 1))))]),
    (.compound [(.ifS none (.binary .land (.cast .implicit .lvalueToRvalue (.declRef ⟨0, "obj1".toList⟩)) (.unary .lnot (.message (some "A".toList) (some (.cast .implicit .lvalueToRvalue (.declRef ⟨0, "obj1".toList⟩))) "isEqualTo:".toList [(.cast .implicit .bitCast (.cast .implicit .lvalueToRvalue (.declRef ⟨1, "obj2".toList⟩)))]))) (.compound [.nullS]) none)])]).isEmpty) = true := by decide +kernel

-- ObjC_ExplicitNullNeCheck
example : ((overRoots (reportOver redundantNilVisit)
    [(.compound [(.returnS (some (.cast .cstyle .other (.intLit 1))))]),
    (.compound [(.ifS none (.binary .land (.binary .ne (.cast .implicit .lvalueToRvalue (.declRef ⟨0, "obj1".toList⟩)) (.cast .implicit .bitCast (.cast .cstyle .nullToPointer (.intLit 0)))) (.unary .lnot (.message (some "A".toList) (some (.cast .implicit .lvalueToRvalue (.declRef ⟨0, "obj1".toList⟩))) "isEqualTo:".toList [(.cast .implicit .bitCast (.cast .implicit .lvalueToRvalue (.declRef ⟨1, "obj2".toList⟩)))]))) (.compound [.nullS]) none)])]).isEmpty) = true := by decide +kernel

-- ObjC_LogicOrEzNullEqCheck
example : ((overRoots (reportOver redundantNilVisit)
    [(.compound [(.returnS (some (.cast .cstyle .other (.intLit 1))))]),
    (.compound [(.ifS none (.binary .lor (.cast .implicit .lvalueToRvalue (.declRef ⟨0, "obj1".toList⟩)) (.cast .implicit .other (.message (some "A".toList) (some (.cast .implicit .lvalueToRvalue (.declRef ⟨0, "obj1".toList⟩))) "isEqualTo:".toList [(.cast .implicit .bitCast (.cast .implicit .lvalueToRvalue (.declRef ⟨1, "obj2".toList⟩)))]))) (.compound [.nullS]) none)])]).isEmpty) = true := by decide +kernel

-- ObjC_LogicOrExplicitNullEqCheck
example : ((overRoots (reportOver redundantNilVisit)
    [(.compound [(.returnS (some (.cast .cstyle .other (.intLit 1))))]),
    (.compound [(.ifS none (.binary .lor (.binary .ne (.cast .implicit .lvalueToRvalue (.declRef ⟨0, "obj1".toList⟩)) (.cast .implicit .bitCast (.cast .cstyle .nullToPointer (.intLit 0)))) (.cast .implicit .other (.message (some "A".toList) (some (.cast .implicit .lvalueToRvalue (.declRef ⟨0, "obj1".toList⟩))) "isEqualTo:".toList [(.cast .implicit .bitCast (.cast .implicit .lvalueToRvalue (.declRef ⟨1, "obj2".toList⟩)))]))) (.compound [.nullS]) none)])]).isEmpty) = true := by decide +kernel

-- ObjC_LogicAndEzNullEqCheck
example : ((overRoots (reportOver redundantNilVisit)
    [(.compound [(.returnS (some (.cast .cstyle .other (.intLit 1))))]),
    (.compound [(.ifS none (.binary .land (.unary .lnot (.cast .implicit .lvalueToRvalue (.declRef ⟨0, "obj1".toList⟩))) (.cast .implicit .other (.message (some "A".toList) (some (.cast .implicit .lvalueToRvalue (.declRef ⟨0, "obj1".toList⟩))) "isEqualTo:".toList [(.cast .implicit .bitCast (.cast .implicit .lvalueToRvalue (.declRef ⟨1, "obj2".toList⟩)))]))) (.compound [.nullS]) none)])]).isEmpty) = true := by decide +kernel

-- ObjC_LogicAndExplicitNullEqCheck
example : ((overRoots (reportOver redundantNilVisit)
    [(.compound [(.returnS (some (.cast .cstyle .other (.intLit 1))))]),
    (.compound [(.ifS none (.binary .land (.binary .eq (.cast .implicit .lvalueToRvalue (.declRef ⟨0, "obj1".toList⟩)) (.cast .implicit .bitCast (.cast .cstyle .nullToPointer (.intLit 0)))) (.cast .implicit .other (.message (some "A".toList) (some (.cast .implicit .lvalueToRvalue (.declRef ⟨0, "obj1".toList⟩))) "isEqualTo:".toList [(.cast .implicit .bitCast (.cast .implicit .lvalueToRvalue (.declRef ⟨1, "obj2".toList⟩)))]))) (.compound [.nullS]) none)])]).isEmpty) = true := by decide +kernel

-- ObjC_ShouldIgnoreDifferentIdentifers
example : ((overRoots (reportOver redundantNilVisit)
    [(.compound [(.returnS (some (.cast .cstyle .other (.intLit 1))))]),
    (.compound [(.ifS none (.binary .land (.binary .ne (.cast .implicit .lvalueToRvalue (.declRef ⟨0, "obj1".toList⟩)) (.cast .implicit .bitCast (.cast .cstyle .nullToPointer (.intLit 0)))) (.cast .implicit .other (.message (some "A".toList) (some (.cast .implicit .lvalueToRvalue (.declRef ⟨1, "obj2".toList⟩))) "isEqualTo:".toList [(.cast .implicit .bitCast (.cast .implicit .lvalueToRvalue (.declRef ⟨0, "obj1".toList⟩)))]))) (.compound [.nullS]) none)])]).isEmpty) = true := by decide +kernel

-- ObjC_MultipleMessageExpr
example : (reportedAll (overRoots (reportOver redundantNilVisit)
    [(.compound [(.returnS (some (.cast .cstyle .other (.intLit 1))))]),
    (.compound [(.ifS none (.binary .land (.binary .ne (.cast .implicit .lvalueToRvalue (.declRef ⟨0, "obj1".toList⟩)) (.cast .implicit .bitCast (.cast .cstyle .nullToPointer (.intLit 0)))) (.paren (.binary .land (.cast .implicit .other (.message (some "A".toList) (some (.cast .implicit .lvalueToRvalue (.declRef ⟨1, "obj2".toList⟩))) "isEqualTo:".toList [(.cast .implicit .bitCast (.cast .implicit .lvalueToRvalue (.declRef ⟨0, "obj1".toList⟩)))])) (.cast .implicit .other (.message (some "A".toList) (some (.cast .implicit .lvalueToRvalue (.declRef ⟨0, "obj1".toList⟩))) "isEqualTo:".toList [(.cast .implicit .bitCast (.cast .implicit .lvalueToRvalue (.declRef ⟨1, "obj2".toList⟩)))]))))) (.compound [.nullS]) none)])])
    [[(.binary .land (.binary .ne (.cast .implicit .lvalueToRvalue (.declRef ⟨0, "obj1".toList⟩)) (.cast .implicit .bitCast (.cast .cstyle .nullToPointer (.intLit 0)))) (.paren (.binary .land (.cast .implicit .other (.message (some "A".toList) (some (.cast .implicit .lvalueToRvalue (.declRef ⟨1, "obj2".toList⟩))) "isEqualTo:".toList [(.cast .implicit .bitCast (.cast .implicit .lvalueToRvalue (.declRef ⟨0, "obj1".toList⟩)))])) (.cast .implicit .other (.message (some "A".toList) (some (.cast .implicit .lvalueToRvalue (.declRef ⟨0, "obj1".toList⟩))) "isEqualTo:".toList [(.cast .implicit .bitCast (.cast .implicit .lvalueToRvalue (.declRef ⟨1, "obj2".toList⟩)))])))))]]) = true := by decide +kernel

/-! ## `oclint-rules/test/redundant/UnnecessaryElseStatementRuleTest.cpp` -/

-- IfStmtWithoutElseBlock
example : ((overRoots unnecessaryElse
    [(.compound [(.ifS none (.intLit 1) (.compound []) none)])]).isEmpty) = true := by decide +kernel

-- IfStmtHasNoReturn
example : ((overRoots unnecessaryElse
    [(.compound [(.ifS none (.intLit 1) (.compound []) (some (.compound [])))])]).isEmpty) = true := by decide +kernel

-- IfThenStmtIsReturn
example : (reportedAll (overRoots unnecessaryElse
    [(.compound [(.ifS none (.intLit 1) (.returnS none) (some (.compound [])))])])
    [[(.compound [])]]) = true := by decide +kernel

-- IfThenBlockHasReturn
example : (reportedAll (overRoots unnecessaryElse
    [(.compound [(.ifS none (.intLit 1) (.compound [(.returnS none)]) (some (.compound [])))])])
    [[(.compound [])]]) = true := by decide +kernel

-- NotEveryBranchEndWithReturn
example : ((overRoots unnecessaryElse
    [(.compound [(.ifS none (.intLit 1) (.compound [(.ifS none (.intLit 0) (.compound [(.ifS none (.intLit 1) (.returnS none) none)]) none)]) (some (.compound [])))])]).isEmpty) = true := by decide +kernel

-- ElseIfShouldBeIgnored
example : ((overRoots unnecessaryElse
    [(.compound [(.ifS none (.intLit 1) (.compound [(.returnS none)]) (some (.ifS none (.intLit 0) (.compound [(.returnS none)]) none)))])]).isEmpty) = true := by decide +kernel

-- NestedElseIf
example : (reportedAll (overRoots unnecessaryElse
    [(.compound [(.ifS none (.intLit 1) (.compound [(.returnS none)]) (some (.ifS none (.intLit 0) (.compound [(.returnS none)]) (some (.compound [])))))])])
    [[(.compound [])]]) = true := by decide +kernel

-- NestedElseIfNotAllBranchesEndWithReturn
example : ((overRoots unnecessaryElse
    [(.compound [(.declS [(.varD ⟨0, "i".toList⟩ none)]), (.ifS none (.intLit 1) (.compound [(.binary .assign (.declRef ⟨0, "i".toList⟩) (.intLit 1))]) (some (.ifS none (.intLit 0) (.compound [(.returnS none)]) (some (.compound [(.binary .assign (.declRef ⟨0, "i".toList⟩) (.intLit 0))])))))])]).isEmpty) = true := by decide +kernel

-- IfThenBlockContainsReturnAsLast
example : (reportedAll (overRoots unnecessaryElse
    [(.compound [(.ifS none (.intLit 1) (.compound [(.declS [(.varD ⟨0, "i".toList⟩ (some (.intLit 1)))]), (.returnS none)]) (some (.compound [])))])])
    [[(.compound [])]]) = true := by decide +kernel

-- IfThenBlockContainsReturnNotLast
example : (reportedAll (overRoots unnecessaryElse
    [(.compound [(.ifS none (.intLit 1) (.compound [(.returnS none), (.declS [(.varD ⟨0, "i".toList⟩ (some (.intLit 2)))])]) (some (.compound [])))])])
    [[(.compound [])]]) = true := by decide +kernel

-- EmbeddedIfStatementsEndingWithReturn
example : (reportedAll (overRoots unnecessaryElse
    [(.compound [(.ifS none (.intLit 1) (.compound [(.ifS none (.intLit 0) (.compound [(.returnS none)]) (some (.compound [(.returnS none)])))]) (some (.compound [(.declS [(.varD ⟨0, "i".toList⟩ (some (.intLit 0)))])])))])])
    [[(.compound [(.returnS none)])],
     [(.compound [(.declS [(.varD ⟨0, "i".toList⟩ (some (.intLit 0)))])])]]) = true := by decide +kernel

/-! ## `oclint-rules/test/redundant/UnnecessaryNullCheckForCXXDeallocRuleTest.cpp` -/

-- IfDelete
example : (reportedAll (overRoots (reportOver (nullCheckDeallocVisit sameStmt))
    [(.compound [(.ifS none (.cast .implicit .pointerToBoolean (.cast .implicit .lvalueToRvalue (.declRef ⟨0, "c".toList⟩))) (.deleteE (.cast .implicit .lvalueToRvalue (.declRef ⟨0, "c".toList⟩))) none)])])
    [[(.ifS none (.cast .implicit .pointerToBoolean (.cast .implicit .lvalueToRvalue (.declRef ⟨0, "c".toList⟩))) (.deleteE (.cast .implicit .lvalueToRvalue (.declRef ⟨0, "c".toList⟩))) none)]]) = true := by decide +kernel

-- Comparator
example : (reportedAll (overRoots (reportOver (nullCheckDeallocVisit sameStmt))
    [(.compound [(.ifS none (.binary .ne (.cast .implicit .lvalueToRvalue (.declRef ⟨0, "c".toList⟩)) (.cast .implicit .nullToPointer (.intLit 0))) (.deleteE (.cast .implicit .lvalueToRvalue (.declRef ⟨0, "c".toList⟩))) none)])])
    [[(.ifS none (.binary .ne (.cast .implicit .lvalueToRvalue (.declRef ⟨0, "c".toList⟩)) (.cast .implicit .nullToPointer (.intLit 0))) (.deleteE (.cast .implicit .lvalueToRvalue (.declRef ⟨0, "c".toList⟩))) none)]]) = true := by decide +kernel

-- Comparator
example : (reportedAll (overRoots (reportOver (nullCheckDeallocVisit sameStmt))
    [(.compound [(.ifS none (.binary .ne (.cast .implicit .bitCast (.cast .implicit .lvalueToRvalue (.declRef ⟨0, "c".toList⟩))) (.cast .cstyle .other (.cast .implicit .nullToPointer (.intLit 0)))) (.deleteE (.cast .implicit .lvalueToRvalue (.declRef ⟨0, "c".toList⟩))) none)])])
    [[(.ifS none (.binary .ne (.cast .implicit .bitCast (.cast .implicit .lvalueToRvalue (.declRef ⟨0, "c".toList⟩))) (.cast .cstyle .other (.cast .implicit .nullToPointer (.intLit 0)))) (.deleteE (.cast .implicit .lvalueToRvalue (.declRef ⟨0, "c".toList⟩))) none)]]) = true := by decide +kernel

-- Comparator
example : (reportedAll (overRoots (reportOver (nullCheckDeallocVisit sameStmt))
    [(.compound [(.ifS none (.binary .ne (.cast .implicit .lvalueToRvalue (.declRef ⟨0, "c".toList⟩)) (.cast .implicit .nullToPointer .nullPtrLit)) (.deleteE (.cast .implicit .lvalueToRvalue (.declRef ⟨0, "c".toList⟩))) none)])])
    [[(.ifS none (.binary .ne (.cast .implicit .lvalueToRvalue (.declRef ⟨0, "c".toList⟩)) (.cast .implicit .nullToPointer .nullPtrLit)) (.deleteE (.cast .implicit .lvalueToRvalue (.declRef ⟨0, "c".toList⟩))) none)]]) = true := by decide +kernel

-- ResetDeleteBlock
example : (reportedAll (overRoots (reportOver (nullCheckDeallocVisit sameStmt))
    [(.compound [(.ifS none (.cast .implicit .pointerToBoolean (.cast .implicit .lvalueToRvalue (.declRef ⟨0, "c".toList⟩))) (.compound [(.deleteE (.cast .implicit .lvalueToRvalue (.declRef ⟨0, "c".toList⟩))), (.binary .assign (.declRef ⟨0, "c".toList⟩) (.cast .implicit .nullToPointer (.intLit 0)))]) none)])])
    [[(.ifS none (.cast .implicit .pointerToBoolean (.cast .implicit .lvalueToRvalue (.declRef ⟨0, "c".toList⟩))) (.compound [(.deleteE (.cast .implicit .lvalueToRvalue (.declRef ⟨0, "c".toList⟩))), (.binary .assign (.declRef ⟨0, "c".toList⟩) (.cast .implicit .nullToPointer (.intLit 0)))]) none)]]) = true := by decide +kernel

-- ResetDeleteBlock
example : (reportedAll (overRoots (reportOver (nullCheckDeallocVisit sameStmt))
    [(.compound [(.ifS none (.cast .implicit .pointerToBoolean (.cast .implicit .lvalueToRvalue (.declRef ⟨0, "c".toList⟩))) (.compound [(.deleteE (.cast .implicit .lvalueToRvalue (.declRef ⟨0, "c".toList⟩))), (.binary .assign (.declRef ⟨0, "c".toList⟩) (.cast .implicit .nullToPointer .nullPtrLit))]) none)])])
    [[(.ifS none (.cast .implicit .pointerToBoolean (.cast .implicit .lvalueToRvalue (.declRef ⟨0, "c".toList⟩))) (.compound [(.deleteE (.cast .implicit .lvalueToRvalue (.declRef ⟨0, "c".toList⟩))), (.binary .assign (.declRef ⟨0, "c".toList⟩) (.cast .implicit .nullToPointer .nullPtrLit))]) none)]]) = true := by decide +kernel

-- DeleteArray
example : (reportedAll (overRoots (reportOver (nullCheckDeallocVisit sameStmt))
    [(.compound [(.ifS none (.binary .ne (.cast .implicit .lvalueToRvalue (.declRef ⟨0, "c".toList⟩)) (.cast .implicit .nullToPointer (.intLit 0))) (.deleteE (.cast .implicit .lvalueToRvalue (.declRef ⟨0, "c".toList⟩))) none)])])
    [[(.ifS none (.binary .ne (.cast .implicit .lvalueToRvalue (.declRef ⟨0, "c".toList⟩)) (.cast .implicit .nullToPointer (.intLit 0))) (.deleteE (.cast .implicit .lvalueToRvalue (.declRef ⟨0, "c".toList⟩))) none)]]) = true := by decide +kernel

-- DeleteArray
example : (reportedAll (overRoots (reportOver (nullCheckDeallocVisit sameStmt))
    [(.compound [(.ifS none (.cast .implicit .pointerToBoolean (.cast .implicit .lvalueToRvalue (.declRef ⟨0, "s".toList⟩))) (.deleteE (.cast .implicit .lvalueToRvalue (.declRef ⟨0, "s".toList⟩))) none)])])
    [[(.ifS none (.cast .implicit .pointerToBoolean (.cast .implicit .lvalueToRvalue (.declRef ⟨0, "s".toList⟩))) (.deleteE (.cast .implicit .lvalueToRvalue (.declRef ⟨0, "s".toList⟩))) none)]]) = true := by decide +kernel

-- CorrectCode
example : ((overRoots (reportOver (nullCheckDeallocVisit sameStmt))
    [(.compound [(.ifS none (.cast .implicit .pointerToBoolean (.cast .implicit .lvalueToRvalue (.declRef ⟨0, "c".toList⟩))) (.compound [(.deleteE (.cast .implicit .lvalueToRvalue (.declRef ⟨0, "c".toList⟩)))]) (some .nullS))])]).isEmpty) = true := by decide +kernel

-- CorrectCode
example : ((overRoots (reportOver (nullCheckDeallocVisit sameStmt))
    [(.compound [(.ifS none (.cast .implicit .pointerToBoolean (.cast .implicit .lvalueToRvalue (.declRef ⟨0, "c".toList⟩))) (.deleteE (.cast .implicit .lvalueToRvalue (.declRef ⟨0, "c".toList⟩))) (some .nullS))])]).isEmpty) = true := by decide +kernel

-- CorrectCode
example : ((overRoots (reportOver (nullCheckDeallocVisit sameStmt))
    [(.compound [(.ifS none (.cast .implicit .pointerToBoolean (.cast .implicit .lvalueToRvalue (.declRef ⟨0, "c".toList⟩))) (.compound [(.deleteE (.cast .implicit .lvalueToRvalue (.declRef ⟨0, "c".toList⟩))), (.binary .assign (.declRef ⟨0, "c".toList⟩) (.cast .implicit .nullToPointer (.intLit 0))), (.unary .preInc (.declRef ⟨0, "c".toList⟩))]) none)])]).isEmpty) = true := by decide +kernel

-- CorrectCode
example : ((overRoots (reportOver (nullCheckDeallocVisit sameStmt))
    [(.compound [(.ifS none (.cast .implicit .pointerToBoolean (.cast .implicit .lvalueToRvalue (.declRef ⟨0, "c".toList⟩))) (.compound [(.deleteE (.cast .implicit .lvalueToRvalue (.declRef ⟨0, "c".toList⟩))), (.binary .assign (.declRef ⟨0, "c".toList⟩) (.cast .implicit .lvalueToRvalue (.declRef ⟨1, "b".toList⟩)))]) none)])]).isEmpty) = true := by decide +kernel

/-! ## `oclint-rules/test/redundant/UselessParenthesesRuleTest.cpp` -/

-- NoParentheses
example : ((overRoots (reportOver uselessParensVisit)
    [(.compound [(.ifS none (.intLit 1) (.compound []) none)])]).isEmpty) = true := by decide +kernel

-- RedundantParenthesesInReturnStmt
example : (reportedAll (overRoots (reportOver uselessParensVisit)
    [(.compound [(.returnS (some (.paren (.intLit 0))))])])
    [[(.paren (.intLit 0))]]) = true := by decide +kernel

-- RedundantParenthesesInAssignment
example : (reportedAll (overRoots (reportOver uselessParensVisit)
    [(.compound [(.declS [(.varD ⟨0, "y".toList⟩ (some (.paren (.binary .add (.cast .implicit .lvalueToRvalue (.declRef ⟨1, "x".toList⟩)) (.intLit 1)))))]), (.returnS (some (.cast .implicit .lvalueToRvalue (.declRef ⟨0, "y".toList⟩))))])])
    [[(.paren (.binary .add (.cast .implicit .lvalueToRvalue (.declRef ⟨1, "x".toList⟩)) (.intLit 1)))]]) = true := by decide +kernel

-- RedundantParenthesesInMultipleAssignments
example : (reportedAll (overRoots (reportOver uselessParensVisit)
    [(.compound [(.declS [(.varD ⟨0, "a".toList⟩ none), (.varD ⟨1, "y".toList⟩ (some (.paren (.binary .add (.cast .implicit .lvalueToRvalue (.declRef ⟨2, "x".toList⟩)) (.intLit 1))))), (.varD ⟨3, "z".toList⟩ (some (.paren (.binary .add (.cast .implicit .lvalueToRvalue (.declRef ⟨2, "x".toList⟩)) (.intLit 2)))))]), (.returnS (some (.binary .add (.cast .implicit .lvalueToRvalue (.declRef ⟨1, "y".toList⟩)) (.cast .implicit .lvalueToRvalue (.declRef ⟨3, "z".toList⟩)))))])])
    [[(.paren (.binary .add (.cast .implicit .lvalueToRvalue (.declRef ⟨2, "x".toList⟩)) (.intLit 1)))],
     [(.paren (.binary .add (.cast .implicit .lvalueToRvalue (.declRef ⟨2, "x".toList⟩)) (.intLit 2)))]]) = true := by decide +kernel

-- RedundantParenthesesInIfCondition
example : (reportedAll (overRoots (reportOver uselessParensVisit)
    [(.compound [(.ifS none (.paren (.binary .gt (.cast .implicit .lvalueToRvalue (.declRef ⟨0, "x".toList⟩)) (.intLit 0))) (.compound [(.returnS none)]) none)])])
    [[(.paren (.binary .gt (.cast .implicit .lvalueToRvalue (.declRef ⟨0, "x".toList⟩)) (.intLit 0)))]]) = true := by decide +kernel

-- ParenthesesInArithmetic
example : ((overRoots (reportOver uselessParensVisit)
    [(.compound [(.returnS (some (.binary .div (.paren (.binary .add (.cast .implicit .lvalueToRvalue (.declRef ⟨0, "x".toList⟩)) (.intLit 1))) (.intLit 2))))])]).isEmpty) = true := by decide +kernel

end Oclint
