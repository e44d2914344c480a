import Verif.Tests.Support

/-!
# Tests of the repository, empty

Written by `tools/repotests.py`; see `Verif/Tests/Support.lean`.
-/

namespace Oclint

set_option linter.all false

/-! ## `oclint-rules/test/empty/EmptyCatchStatementRuleTest.cpp` -/

-- NonEmptyCXXCatchStmt
example : ((overRoots (reportOver emptyCatchVisit)
    [(.compound [(.cxxTry (.compound [.nullS]) [(.cxxCatch none (.compound [.nullS]))])])]).isEmpty) = true := by decide +kernel

-- EmptyCXXCatchWithEmptyCompoundStmt
example : (reportedAt 0 (overRoots (reportOver emptyCatchVisit)
    [(.compound [(.cxxTry (.compound [.nullS]) [(.cxxCatch none (.compound []))])])])
    [(.compound [])]) = true := by decide +kernel

-- MultipleEmptyCXXCatchStmts
example : (reportedAt 0 (overRoots (reportOver emptyCatchVisit)
    [(.compound [(.cxxTry (.compound [.nullS]) [(.cxxCatch (some (.varD ⟨0, "i".toList⟩ none)) (.compound [])), (.cxxCatch none (.compound []))])])])
    [(.compound [])]) = true := by decide +kernel

-- MultipleEmptyCXXCatchStmts
example : (reportedAt 1 (overRoots (reportOver emptyCatchVisit)
    [(.compound [(.cxxTry (.compound [.nullS]) [(.cxxCatch (some (.varD ⟨0, "i".toList⟩ none)) (.compound [])), (.cxxCatch none (.compound []))])])])
    [(.compound [])]) = true := by decide +kernel

-- NonEmptyObjCCatchStmt
example : ((overRoots (reportOver emptyCatchVisit)
    [(.compound [(.atTry (.compound [.nullS]) [(.atCatch (.compound [.nullS]))] none)])]).isEmpty) = true := by decide +kernel

-- EmptyObjCCatchWithEmptyCompoundStmt
example : (reportedAt 0 (overRoots (reportOver emptyCatchVisit)
    [(.compound [(.atTry (.compound [.nullS]) [(.atCatch (.compound []))] none)])])
    [(.compound [])]) = true := by decide +kernel

-- MultipleEmptyObjCCatchStmts
example : (reportedAt 0 (overRoots (reportOver emptyCatchVisit)
    [(.compound [(.atTry (.compound [.nullS]) [(.atCatch (.compound [])), (.atCatch (.compound []))] none)])])
    [(.compound [])]) = true := by decide +kernel

-- MultipleEmptyObjCCatchStmts
example : (reportedAt 1 (overRoots (reportOver emptyCatchVisit)
    [(.compound [(.atTry (.compound [.nullS]) [(.atCatch (.compound [])), (.atCatch (.compound []))] none)])])
    [(.compound [])]) = true := by decide +kernel

/-! ## `oclint-rules/test/empty/EmptyDoWhileStatementRuleTest.cpp` -/

-- GoodWhileStatement
example : ((overRoots (reportOver emptyDoWhileVisit)
    [(.compound [(.doS (.compound [.nullS]) (.intLit 1))])]).isEmpty) = true := by decide +kernel

-- WhileStatementWithEmptyComponent
example : (reportedAt 0 (overRoots (reportOver emptyDoWhileVisit)
    [(.compound [(.doS (.compound []) (.intLit 1))])])
    [(.compound [])]) = true := by decide +kernel

-- WhileStatementWithNullStmt
example : (reportedAt 0 (overRoots (reportOver emptyDoWhileVisit)
    [(.compound [(.doS .nullS (.intLit 1))])])
    [.nullS]) = true := by decide +kernel

/-! ## `oclint-rules/test/empty/EmptyElseBlockRuleTest.cpp` -/

-- GoodElseBlock
example : ((overRoots (reportOver emptyElseVisit)
    [(.compound [(.ifS none (.intLit 1) (.compound [.nullS]) (some (.compound [.nullS])))])]).isEmpty) = true := by decide +kernel

-- EmptyElseComponent
example : (reportedAt 0 (overRoots (reportOver emptyElseVisit)
    [(.compound [(.ifS none (.intLit 1) (.compound [.nullS]) (some (.compound [])))])])
    [(.compound [])]) = true := by decide +kernel

-- NullElseComponent
example : (reportedAt 0 (overRoots (reportOver emptyElseVisit)
    [(.compound [(.ifS none (.intLit 1) (.compound [.nullS]) (some .nullS))])])
    [.nullS]) = true := by decide +kernel

/-! ## `oclint-rules/test/empty/EmptyFinallyStatementRuleTest.cpp` -/

-- NonEmptyObjCFinallyStmt
example : ((overRoots (reportOver emptyFinallyVisit)
    [(.compound [(.atTry (.compound [.nullS]) [(.atCatch (.compound [.nullS]))] (some (.atFinally (.compound [.nullS]))))])]).isEmpty) = true := by decide +kernel

-- EmptyObjCFinallyWithEmptyCompoundStmt
example : (reportedAt 0 (overRoots (reportOver emptyFinallyVisit)
    [(.compound [(.atTry (.compound [.nullS]) [(.atCatch (.compound [.nullS]))] (some (.atFinally (.compound []))))])])
    [(.compound [])]) = true := by decide +kernel

/-! ## `oclint-rules/test/empty/EmptyForStatementRuleTest.cpp` -/

-- GoodForStatement
example : ((overRoots (reportOver emptyForVisit)
    [(.compound [(.forS none none none (.compound [.nullS]))])]).isEmpty) = true := by decide +kernel

-- ForStatementWithEmptyComponent
example : (reportedAt 0 (overRoots (reportOver emptyForVisit)
    [(.compound [(.forS none none none (.compound []))])])
    [(.compound [])]) = true := by decide +kernel

-- ForStatementWithNullStmt
example : (reportedAt 0 (overRoots (reportOver emptyForVisit)
    [(.compound [(.forS none none none .nullS)])])
    [.nullS]) = true := by decide +kernel

-- GoodObjcForEachStatement
example : ((overRoots (reportOver emptyForVisit)
    [(.compound [(.declS [(.varD ⟨0, "a".toList⟩ none)]), (.forIn (.declS [(.varD ⟨1, "it".toList⟩ none)]) (.cast .implicit .lvalueToRvalue (.declRef ⟨0, "a".toList⟩)) (.compound [.nullS]))])]).isEmpty) = true := by decide +kernel

-- ObjcForEachStatementWithEmptyComponent
example : (reportedAt 0 (overRoots (reportOver emptyForVisit)
    [(.compound [(.declS [(.varD ⟨0, "a".toList⟩ none)]), (.forIn (.declS [(.varD ⟨1, "it".toList⟩ none)]) (.cast .implicit .lvalueToRvalue (.declRef ⟨0, "a".toList⟩)) (.compound []))])])
    [(.compound [])]) = true := by decide +kernel

-- ObjcForEachStatementWithNullStmt
example : (reportedAt 0 (overRoots (reportOver emptyForVisit)
    [(.compound [(.declS [(.varD ⟨0, "a".toList⟩ none)]), (.forIn (.declS [(.varD ⟨1, "it".toList⟩ none)]) (.cast .implicit .lvalueToRvalue (.declRef ⟨0, "a".toList⟩)) .nullS)])])
    [.nullS]) = true := by decide +kernel

/-! ## `oclint-rules/test/empty/EmptyIfStatementRuleTest.cpp` -/

-- GoodIfStatement
example : ((overRoots (reportOver emptyIfVisit)
    [(.compound [(.ifS none (.intLit 1) (.compound [.nullS]) none)])]).isEmpty) = true := by decide +kernel

-- IfStatementWithEmptyComponent
example : (reportedAt 0 (overRoots (reportOver emptyIfVisit)
    [(.compound [(.ifS none (.intLit 1) (.compound []) none)])])
    [(.compound [])]) = true := by decide +kernel

-- IfStatementWithNull
example : (reportedAt 0 (overRoots (reportOver emptyIfVisit)
    [(.compound [(.ifS none (.intLit 1) .nullS none)])])
    [.nullS]) = true := by decide +kernel

/-! ## `oclint-rules/test/empty/EmptySwitchStatementRuleTest.cpp` -/

-- GoodSwitchStatement
example : ((overRoots (reportOver emptySwitchVisit)
    [(.compound [(.declS [(.varD ⟨0, "i".toList⟩ none)]), (.switchS false (.cast .implicit .lvalueToRvalue (.declRef ⟨0, "i".toList⟩)) (.compound [.nullS]))])]).isEmpty) = true := by decide +kernel

-- SwitchStatementWithEmptyComponent
example : (reportedAt 0 (overRoots (reportOver emptySwitchVisit)
    [(.compound [(.declS [(.varD ⟨0, "i".toList⟩ none)]), (.switchS false (.cast .implicit .lvalueToRvalue (.declRef ⟨0, "i".toList⟩)) (.compound []))])])
    [(.compound [])]) = true := by decide +kernel

/-! ## `oclint-rules/test/empty/EmptyTryStatementRuleTest.cpp` -/

-- NonEmptyCXXTryStmt
example : ((overRoots (reportOver emptyTryVisit)
    [(.compound [(.cxxTry (.compound [.nullS]) [(.cxxCatch none (.compound [.nullS]))])])]).isEmpty) = true := by decide +kernel

-- EmptyCXXTryWithEmptyCompoundStmt
example : (reportedAt 0 (overRoots (reportOver emptyTryVisit)
    [(.compound [(.cxxTry (.compound []) [(.cxxCatch none (.compound [.nullS]))])])])
    [(.compound [])]) = true := by decide +kernel

-- NonEmptyObjCTryStmt
example : ((overRoots (reportOver emptyTryVisit)
    [(.compound [(.atTry (.compound [.nullS]) [(.atCatch (.compound [.nullS]))] none)])]).isEmpty) = true := by decide +kernel

-- EmptyObjCTryWithEmptyCompoundStmt
example : (reportedAt 0 (overRoots (reportOver emptyTryVisit)
    [(.compound [(.atTry (.compound []) [(.atCatch (.compound [.nullS]))] none)])])
    [(.compound [])]) = true := by decide +kernel

/-! ## `oclint-rules/test/empty/EmptyWhileStatementRuleTest.cpp` -/

-- GoodWhileStatement
example : ((overRoots (reportOver emptyWhileVisit)
    [(.compound [(.whileS (.intLit 1) (.compound [.nullS]))])]).isEmpty) = true := by decide +kernel

-- WhileStatementWithEmptyComponent
example : (reportedAt 0 (overRoots (reportOver emptyWhileVisit)
    [(.compound [(.whileS (.intLit 1) (.compound []))])])
    [(.compound [])]) = true := by decide +kernel

-- WhileStatementWithNullStmt
example : (reportedAt 0 (overRoots (reportOver emptyWhileVisit)
    [(.compound [(.whileS (.intLit 1) .nullS)])])
    [.nullS]) = true := by decide +kernel

end Oclint
