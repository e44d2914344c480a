import Verif.Tests.Support

/-!
# Tests of the repository, metrics

Written by `tools/repotests.py`; see `Verif/Tests/Support.lean`.
-/

namespace Oclint

set_option linter.all false

/-! ## `oclint-metrics/test/CyclomaticComplexityMetricTest.cpp` -/

-- EmptyFunction
example : (isOk (cyclomaticComplexity [(.compound [])]) 1) = true := by decide +kernel

-- OneIfStatement
example : (isOk (cyclomaticComplexity [(.compound [(.ifS none (.intLit 1) (.compound []) none)])]) 2) = true := by decide +kernel

-- OneForStatement
example : (isOk (cyclomaticComplexity [(.compound [(.forS none none none (.compound []))])]) 2) = true := by decide +kernel

-- OneObjCForCollectionStatement
example : (isOk (cyclomaticComplexity [(.compound [(.declS [(.varD ⟨0, "array".toList⟩ none)]), (.forIn (.declS [(.varD ⟨1, "one".toList⟩ none)]) (.cast .implicit .lvalueToRvalue (.declRef ⟨0, "array".toList⟩)) (.compound []))])]) 2) = true := by decide +kernel

-- OneWhileStatement
example : (isOk (cyclomaticComplexity [(.compound [(.whileS (.intLit 1) (.compound []))])]) 2) = true := by decide +kernel

-- OneDoStatement
example : (isOk (cyclomaticComplexity [(.compound [(.doS (.compound []) (.intLit 1))])]) 2) = true := by decide +kernel

-- OneCaseStatement
example : (isOk (cyclomaticComplexity [(.compound [(.declS [(.varD ⟨0, "i".toList⟩ (some (.intLit 1)))]), (.switchS false (.cast .implicit .lvalueToRvalue (.declRef ⟨0, "i".toList⟩)) (.compound [(.caseS (.otherE [(.intLit 1)]) .breakS)]))])]) 2) = true := by decide +kernel

-- TwoCaseStatements
example : (isOk (cyclomaticComplexity [(.compound [(.declS [(.varD ⟨0, "i".toList⟩ (some (.intLit 1)))]), (.switchS false (.cast .implicit .lvalueToRvalue (.declRef ⟨0, "i".toList⟩)) (.compound [(.caseS (.otherE [(.intLit 1)]) (.caseS (.otherE [(.intLit 2)]) .breakS))]))])]) 3) = true := by decide +kernel

-- OneCXXCatchStatement
example : (isOk (cyclomaticComplexity [(.compound [(.cxxTry (.compound []) [(.cxxCatch none (.compound []))])])]) 2) = true := by decide +kernel

-- OneObjCAtCatchStatement
example : (isOk (cyclomaticComplexity [(.compound [(.atTry (.compound []) [(.atCatch (.compound []))] none)])]) 2) = true := by decide +kernel

-- OneConditionalOperator
example : (isOk (cyclomaticComplexity [(.compound [(.declS [(.varD ⟨0, "i".toList⟩ (some (.condOp (.intLit 0) (.intLit 1) (.unary .minus (.intLit 1)))))])])]) 2) = true := by decide +kernel

-- OneLogicAndOperator
example : (isOk (cyclomaticComplexity [(.compound [(.declS [(.varD ⟨0, "b".toList⟩ (some (.binary .land (.intLit 1) (.intLit 0))))])])]) 2) = true := by decide +kernel

-- OneLogicOrOperator
example : (isOk (cyclomaticComplexity [(.compound [(.declS [(.varD ⟨0, "b".toList⟩ (some (.binary .lor (.intLit 1) (.intLit 0))))])])]) 2) = true := by decide +kernel

-- ABinaryOperatorButHasNoEffectOnCCNCouting
example : (isOk (cyclomaticComplexity [(.compound [(.declS [(.varD ⟨0, "b".toList⟩ (some (.binary .eq (.intLit 1) (.intLit 0))))])])]) 1) = true := by decide +kernel

/-! ## `oclint-metrics/test/NPathComplexityMetricTest.cpp` -/

-- EmptyMethod
example : (isOk (npathComplexity (.compound [])) 1) = true := by decide +kernel

-- IfStmtWithConstantConditionAndEmptyThenCompoundStmt
example : (isOk (npathComplexity (.compound [(.ifS none (.intLit 1) (.compound []) none)])) 2) = true := by decide +kernel

-- IfStmtWithOneLogicAndOperatorConditionAndEmptyThenCompoundStmt
example : (isOk (npathComplexity (.compound [(.ifS none (.binary .land (.intLit 1) (.intLit 0)) (.compound []) none)])) 3) = true := by decide +kernel

-- IfStmtWithOneLogicOrOperatorConditionAndEmptyThenCompoundStmt
example : (isOk (npathComplexity (.compound [(.ifS none (.binary .lor (.intLit 1) (.intLit 0)) (.compound []) none)])) 3) = true := by decide +kernel

-- IfStmtWithMultipleLogicAndOrOperatorsConditionAndEmptyThenCompoundStmt
example : (isOk (npathComplexity (.compound [(.ifS none (.binary .lor (.intLit 0) (.binary .land (.intLit 1) (.intLit 0))) (.compound []) none)])) 4) = true := by decide +kernel

-- IfElseStmtWithConstantConditionAndEmptyThenCompoundStmt
example : (isOk (npathComplexity (.compound [(.ifS none (.intLit 1) (.compound []) (some (.compound [])))])) 2) = true := by decide +kernel

-- IfElseStmtWithOneLogicAndOperatorConditionAndEmptyThenCompoundStmt
example : (isOk (npathComplexity (.compound [(.ifS none (.binary .land (.intLit 1) (.intLit 0)) (.compound []) (some (.compound [])))])) 3) = true := by decide +kernel

-- IfElseStmtWithOneLogicOrOperatorConditionAndEmptyThenCompoundStmt
example : (isOk (npathComplexity (.compound [(.ifS none (.binary .lor (.intLit 1) (.intLit 0)) (.compound []) (some (.compound [])))])) 3) = true := by decide +kernel

-- IfElseStmtWithMultipleLogicAndOrOperatorsConditionAndEmptyThenCompoundStmt
example : (isOk (npathComplexity (.compound [(.ifS none (.binary .lor (.intLit 0) (.binary .land (.intLit 1) (.intLit 0))) (.compound []) (some (.compound [])))])) 4) = true := by decide +kernel

-- NestedIfStmt
example : (isOk (npathComplexity (.compound [(.ifS none (.intLit 1) (.compound [(.ifS none (.intLit 1) (.compound []) none)]) none)])) 3) = true := by decide +kernel

-- NestedIfElseStmt
example : (isOk (npathComplexity (.compound [(.ifS none (.intLit 1) (.compound [(.ifS none (.intLit 1) (.compound []) (some (.compound [])))]) (some (.compound [(.ifS none (.intLit 1) (.compound []) (some (.compound [])))])))])) 4) = true := by decide +kernel

-- WhileStmtWithConstantConditionAndEmptyCompoundStmt
example : (isOk (npathComplexity (.compound [(.whileS (.intLit 1) (.compound []))])) 2) = true := by decide +kernel

-- WhileStmtWithOneLogicAndOperatorConditionAndEmptyCompoundStmt
example : (isOk (npathComplexity (.compound [(.whileS (.binary .land (.intLit 1) (.intLit 0)) (.compound []))])) 3) = true := by decide +kernel

-- WhileStmtWithOneLogicOrOperatorConditionAndEmptyCompoundStmt
example : (isOk (npathComplexity (.compound [(.whileS (.binary .lor (.intLit 1) (.intLit 0)) (.compound []))])) 3) = true := by decide +kernel

-- DoWhileStmtWithConstantConditionAndEmptyCompoundStmt
example : (isOk (npathComplexity (.compound [(.doS (.compound []) (.intLit 1))])) 2) = true := by decide +kernel

-- DoWhileStmtWithOneLogicAndOperatorConditionAndEmptyCompoundStmt
example : (isOk (npathComplexity (.compound [(.doS (.compound []) (.binary .land (.intLit 1) (.intLit 0)))])) 3) = true := by decide +kernel

-- DoWhileStmtWithOneLogicOrOperatorConditionAndEmptyCompoundStmt
example : (isOk (npathComplexity (.compound [(.doS (.compound []) (.binary .lor (.intLit 1) (.intLit 0)))])) 3) = true := by decide +kernel

-- ForStmtWithSimpleConditionAndEmptyCompoundStmt
example : (isOk (npathComplexity (.compound [(.forS (some (.declS [(.varD ⟨0, "i".toList⟩ (some (.intLit 0)))])) (some (.binary .lt (.cast .implicit .lvalueToRvalue (.declRef ⟨0, "i".toList⟩)) (.intLit 1))) (some (.unary .postInc (.declRef ⟨0, "i".toList⟩))) (.compound []))])) 3) = true := by decide +kernel

-- ForStmtWithOneLogicAndOperatorConditionAndEmptyCompoundStmt
example : (isOk (npathComplexity (.compound [(.forS (some (.declS [(.varD ⟨0, "i".toList⟩ (some (.intLit 0)))])) (some (.binary .land (.binary .lt (.cast .implicit .lvalueToRvalue (.declRef ⟨0, "i".toList⟩)) (.intLit 1)) (.intLit 0))) (some (.unary .postInc (.declRef ⟨0, "i".toList⟩))) (.compound []))])) 4) = true := by decide +kernel

-- ObjCForeachStmtWithEmptyCompoundStmt
example : (isOk (npathComplexity (.compound [(.declS [(.varD ⟨0, "anArray".toList⟩ none)]), (.forIn (.declS [(.varD ⟨1, "it".toList⟩ none)]) (.cast .implicit .lvalueToRvalue (.declRef ⟨0, "anArray".toList⟩)) (.compound []))])) 3) = true := by decide +kernel

-- ObjCForeachStmtWithCompoundStmtWithIfStmt
example : (isOk (npathComplexity (.compound [(.declS [(.varD ⟨0, "anArray".toList⟩ none)]), (.forIn (.declS [(.varD ⟨1, "it".toList⟩ none)]) (.cast .implicit .lvalueToRvalue (.declRef ⟨0, "anArray".toList⟩)) (.compound [(.ifS none (.intLit 1) (.compound []) none)]))])) 4) = true := by decide +kernel

-- SwitchStmtWithSimpleConditionAndEmptyBody
example : (isOk (npathComplexity (.compound [(.declS [(.varD ⟨0, "i".toList⟩ none)]), (.switchS false (.cast .implicit .lvalueToRvalue (.declRef ⟨0, "i".toList⟩)) (.compound []))])) 0) = true := by decide +kernel

-- SwitchStmtWithSimpleConditionAndOneCase
example : (isOk (npathComplexity (.compound [(.declS [(.varD ⟨0, "i".toList⟩ none)]), (.switchS false (.cast .implicit .lvalueToRvalue (.declRef ⟨0, "i".toList⟩)) (.compound [(.caseS (.otherE [(.intLit 1)]) .breakS)]))])) 1) = true := by decide +kernel

-- SwitchStmtWithSimpleConditionAndOneReturn
example : (isOk (npathComplexity (.compound [(.declS [(.varD ⟨0, "i".toList⟩ none)]), (.switchS false (.cast .implicit .lvalueToRvalue (.declRef ⟨0, "i".toList⟩)) (.returnS none))])) 1) = true := by decide +kernel

-- SwitchStmtWithSimpleConditionAndOneCaseOneDefault
example : (isOk (npathComplexity (.compound [(.declS [(.varD ⟨0, "i".toList⟩ none)]), (.switchS false (.cast .implicit .lvalueToRvalue (.declRef ⟨0, "i".toList⟩)) (.compound [(.caseS (.otherE [(.intLit 1)]) .breakS), (.defaultS .breakS)]))])) 2) = true := by decide +kernel

-- SwitchStmtWithSimpleConditionAndTwoCasesOneDefault
example : (isOk (npathComplexity (.compound [(.declS [(.varD ⟨0, "i".toList⟩ none)]), (.switchS false (.cast .implicit .lvalueToRvalue (.declRef ⟨0, "i".toList⟩)) (.compound [(.caseS (.otherE [(.intLit 1)]) .breakS), (.caseS (.otherE [(.intLit 2)]) .breakS), (.defaultS .breakS)]))])) 3) = true := by decide +kernel

-- SwitchStmtWithSimpleConditionAndOneCaseOneIfOneDefault
example : (isOk (npathComplexity (.compound [(.declS [(.varD ⟨0, "i".toList⟩ none)]), (.switchS false (.cast .implicit .lvalueToRvalue (.declRef ⟨0, "i".toList⟩)) (.compound [(.caseS (.otherE [(.intLit 1)]) .breakS), (.ifS none (.binary .land (.binary .gt (.cast .implicit .lvalueToRvalue (.declRef ⟨0, "i".toList⟩)) (.intLit 0)) (.binary .lt (.cast .implicit .lvalueToRvalue (.declRef ⟨0, "i".toList⟩)) (.intLit 0))) (.compound []) none), (.defaultS .breakS)]))])) 4) = true := by decide +kernel

-- SwitchStmtWithSimpleConditionAndOneCaseAsIfOneDefault
example : (isOk (npathComplexity (.compound [(.declS [(.varD ⟨0, "i".toList⟩ none)]), (.switchS false (.cast .implicit .lvalueToRvalue (.declRef ⟨0, "i".toList⟩)) (.compound [(.caseS (.otherE [(.intLit 1)]) (.ifS none (.binary .land (.binary .gt (.cast .implicit .lvalueToRvalue (.declRef ⟨0, "i".toList⟩)) (.intLit 0)) (.binary .lt (.cast .implicit .lvalueToRvalue (.declRef ⟨0, "i".toList⟩)) (.intLit 0))) (.compound []) none)), .breakS, (.defaultS .breakS)]))])) 4) = true := by decide +kernel

-- SwitchStmtWithSimpleConditionAndOneCaseAsTwoIfsOneDefault
example : (isOk (npathComplexity (.compound [(.declS [(.varD ⟨0, "i".toList⟩ none)]), (.switchS false (.cast .implicit .lvalueToRvalue (.declRef ⟨0, "i".toList⟩)) (.compound [(.caseS (.otherE [(.intLit 1)]) (.ifS none (.binary .gt (.cast .implicit .lvalueToRvalue (.declRef ⟨0, "i".toList⟩)) (.intLit 0)) (.compound []) none)), (.ifS none (.binary .lt (.cast .implicit .lvalueToRvalue (.declRef ⟨0, "i".toList⟩)) (.intLit 0)) (.compound []) none), .breakS, (.defaultS .breakS)]))])) 5) = true := by decide +kernel

-- BasicConditionalOperator
example : (isOk (npathComplexity (.compound [(.ifS none (.condOp (.intLit 1) (.intLit 2) (.intLit 3)) (.compound []) none)])) 4) = true := by decide +kernel

-- NastingConditionalOperator
example : (isOk (npathComplexity (.compound [(.ifS none (.condOp (.intLit 1) (.paren (.condOp (.intLit 2) (.intLit 3) (.intLit 4))) (.paren (.condOp (.intLit 5) (.intLit 6) (.intLit 7)))) (.compound []) none)])) 8) = true := by decide +kernel

/-! ## `oclint-metrics/test/NcssMetricTest.cpp` -/

-- EmptyFunction
example : (isOk (ncss (.compound [])) 0) = true := by decide +kernel

-- NullStmtsDoNotContribute
example : (isOk (ncss (.compound [.nullS, .nullS, .nullS, .nullS, .nullS])) 0) = true := by decide +kernel

-- SemiColonAfterDeclStmtCount
example : (isOk (ncss (.compound [(.declS [(.varD ⟨0, "a".toList⟩ (some (.intLit 1)))])])) 1) = true := by decide +kernel

-- DeclStmtWithManyVariables
example : (isOk (ncss (.compound [(.declS [(.varD ⟨0, "a".toList⟩ (some (.intLit 1))), (.varD ⟨1, "b".toList⟩ (some (.intLit 2))), (.varD ⟨2, "c".toList⟩ (some (.intLit 3)))])])) 1) = true := by decide +kernel

-- MethodCall
example : (isOk (ncss (.compound [(.call (.cast .implicit .other (.declRef ⟨0, "n".toList⟩)) [])])) 1) = true := by decide +kernel

-- EmptyCompoundStmt
example : (isOk (ncss (.compound [(.compound []), (.compound []), (.compound []), (.compound []), (.compound [])])) 0) = true := by decide +kernel

-- IfStatement
example : (isOk (ncss (.compound [(.ifS none (.intLit 1) (.compound []) none)])) 1) = true := by decide +kernel

-- IfStatementWithElse
example : (isOk (ncss (.compound [(.ifS none (.intLit 1) (.compound []) (some (.compound [])))])) 2) = true := by decide +kernel

-- ForStatement
example : (isOk (ncss (.compound [(.forS none none none (.compound []))])) 1) = true := by decide +kernel

-- ObjCForCollectionStatement
example : (isOk (ncss (.compound [(.declS [(.varD ⟨0, "array".toList⟩ none)]), (.forIn (.declS [(.varD ⟨1, "one".toList⟩ none)]) (.cast .implicit .lvalueToRvalue (.declRef ⟨0, "array".toList⟩)) (.compound []))])) 2) = true := by decide +kernel

-- WhileStatement
example : (isOk (ncss (.compound [(.whileS (.intLit 1) (.compound []))])) 1) = true := by decide +kernel

-- DoStatement
example : (isOk (ncss (.compound [(.doS (.compound []) (.intLit 1))])) 2) = true := by decide +kernel

-- CXXTryCatch
example : (isOk (ncss (.compound [(.cxxTry (.compound [(.declS [(.varD ⟨0, "a".toList⟩ (some (.intLit 1)))])]) [(.cxxCatch none (.compound [(.declS [(.varD ⟨1, "b".toList⟩ (some (.intLit 2)))])]))])])) 4) = true := by decide +kernel

-- ObjCTryCatch
example : (isOk (ncss (.compound [(.atTry (.compound []) [(.atCatch (.compound []))] none)])) 2) = true := by decide +kernel

-- ObjCTryCatchFinally
example : (isOk (ncss (.compound [(.atTry (.compound [(.declS [(.varD ⟨0, "c".toList⟩ (some (.intLit 3)))])]) [(.atCatch (.compound [(.declS [(.varD ⟨1, "a".toList⟩ (some (.intLit 1)))])]))] (some (.atFinally (.compound [(.declS [(.varD ⟨2, "b".toList⟩ (some (.intLit 2)))])]))))])) 6) = true := by decide +kernel

-- ObjCAutoreleasePool
example : (isOk (ncss (.compound [(.autoreleasePool (.compound [(.declS [(.varD ⟨0, "a".toList⟩ (some (.intLit 1)))])]))])) 2) = true := by decide +kernel

-- ObjCSynchronized
example : (isOk (ncss (.compound [(.declS [(.varD ⟨0, "res".toList⟩ none)]), (.atSynchronized (.cast .implicit .lvalueToRvalue (.declRef ⟨0, "res".toList⟩)) (.compound [(.declS [(.varD ⟨1, "a".toList⟩ (some (.intLit 1)))])]))])) 3) = true := by decide +kernel

-- OneCaseStatement
example : (isOk (ncss (.compound [(.declS [(.varD ⟨0, "i".toList⟩ (some (.intLit 1)))]), (.switchS false (.cast .implicit .lvalueToRvalue (.declRef ⟨0, "i".toList⟩)) (.compound [(.caseS (.otherE [(.intLit 1)]) .breakS)]))])) 4) = true := by decide +kernel

-- TwoCaseStatements
example : (isOk (ncss (.compound [(.declS [(.varD ⟨0, "i".toList⟩ (some (.intLit 1)))]), (.switchS false (.cast .implicit .lvalueToRvalue (.declRef ⟨0, "i".toList⟩)) (.compound [(.caseS (.otherE [(.intLit 1)]) (.caseS (.otherE [(.intLit 2)]) .breakS))]))])) 5) = true := by decide +kernel

-- TwoCaseStatementsAndDefault
example : (isOk (ncss (.compound [(.declS [(.varD ⟨0, "i".toList⟩ (some (.intLit 1)))]), (.switchS false (.cast .implicit .lvalueToRvalue (.declRef ⟨0, "i".toList⟩)) (.compound [(.caseS (.otherE [(.intLit 1)]) (.binary .assign (.declRef ⟨0, "i".toList⟩) (.intLit 2))), .breakS, (.caseS (.otherE [(.intLit 2)]) .breakS), (.defaultS .breakS)]))])) 9) = true := by decide +kernel

/-! ## `oclint-metrics/test/StmtDepthMetricTest.cpp` -/

-- EmptyFunction
example : (isOk (stmtDepth (.compound [])) 1) = true := by decide +kernel

-- TwoLevelBlock
example : (isOk (stmtDepth (.compound [(.compound [])])) 2) = true := by decide +kernel

-- ChooseTheDeepest
example : (isOk (stmtDepth (.compound [(.compound []), (.compound [(.compound [(.compound [])])]), (.compound [(.compound [])])])) 4) = true := by decide +kernel

-- IfStatement
example : (isOk (stmtDepth (.compound [(.ifS none (.intLit 1) (.compound []) none)])) 2) = true := by decide +kernel

-- IfStatementWithElse
example : (isOk (stmtDepth (.compound [(.ifS none (.intLit 1) (.compound []) (some (.compound [(.compound [(.compound [])])])))])) 4) = true := by decide +kernel

-- ForStatement
example : (isOk (stmtDepth (.compound [(.forS none none none (.compound []))])) 2) = true := by decide +kernel

-- ObjCForCollectionStatement
example : (isOk (stmtDepth (.compound [(.declS [(.varD ⟨0, "array".toList⟩ none)]), (.forIn (.declS [(.varD ⟨1, "one".toList⟩ none)]) (.cast .implicit .lvalueToRvalue (.declRef ⟨0, "array".toList⟩)) (.compound []))])) 2) = true := by decide +kernel

-- WhileStatement
example : (isOk (stmtDepth (.compound [(.whileS (.intLit 1) (.compound []))])) 2) = true := by decide +kernel

-- DoStatement
example : (isOk (stmtDepth (.compound [(.doS (.compound []) (.intLit 1))])) 2) = true := by decide +kernel

-- CXXTryCatch
example : (isOk (stmtDepth (.compound [(.cxxTry (.compound [(.declS [(.varD ⟨0, "a".toList⟩ (some (.intLit 1)))])]) [(.cxxCatch none (.compound [(.declS [(.varD ⟨1, "b".toList⟩ (some (.intLit 2)))]), (.compound [(.compound [])])]))])])) 4) = true := by decide +kernel

-- ObjCTryCatch
example : (isOk (stmtDepth (.compound [(.atTry (.compound []) [(.atCatch (.compound [(.compound [(.compound [])])]))] none)])) 4) = true := by decide +kernel

-- ObjCTryCatchFinally
example : (isOk (stmtDepth (.compound [(.atTry (.compound [(.declS [(.varD ⟨0, "c".toList⟩ (some (.intLit 3)))])]) [(.atCatch (.compound [(.declS [(.varD ⟨1, "a".toList⟩ (some (.intLit 1)))])]))] (some (.atFinally (.compound [(.declS [(.varD ⟨2, "b".toList⟩ (some (.intLit 2)))]), (.compound [(.compound [])])]))))])) 4) = true := by decide +kernel

-- ObjCAutoreleasePool
example : (isOk (stmtDepth (.compound [(.autoreleasePool (.compound [(.declS [(.varD ⟨0, "a".toList⟩ (some (.intLit 1)))])]))])) 2) = true := by decide +kernel

-- ObjCSynchronized
example : (isOk (stmtDepth (.compound [(.declS [(.varD ⟨0, "res".toList⟩ none)]), (.atSynchronized (.cast .implicit .lvalueToRvalue (.declRef ⟨0, "res".toList⟩)) (.compound [(.declS [(.varD ⟨1, "a".toList⟩ (some (.intLit 1)))])]))])) 2) = true := by decide +kernel

-- OneCaseStatement
example : (isOk (stmtDepth (.compound [(.declS [(.varD ⟨0, "i".toList⟩ (some (.intLit 1)))]), (.switchS false (.cast .implicit .lvalueToRvalue (.declRef ⟨0, "i".toList⟩)) (.compound [(.caseS (.otherE [(.intLit 1)]) .breakS)]))])) 2) = true := by decide +kernel

-- TwoCaseStatements
example : (isOk (stmtDepth (.compound [(.declS [(.varD ⟨0, "i".toList⟩ (some (.intLit 1)))]), (.switchS false (.cast .implicit .lvalueToRvalue (.declRef ⟨0, "i".toList⟩)) (.compound [(.caseS (.otherE [(.intLit 1)]) (.caseS (.otherE [(.intLit 2)]) .breakS))]))])) 2) = true := by decide +kernel

-- TwoCaseStatementsAndDefault
example : (isOk (stmtDepth (.compound [(.declS [(.varD ⟨0, "i".toList⟩ (some (.intLit 1)))]), (.switchS false (.cast .implicit .lvalueToRvalue (.declRef ⟨0, "i".toList⟩)) (.compound [(.caseS (.otherE [(.intLit 1)]) (.binary .assign (.declRef ⟨0, "i".toList⟩) (.intLit 2))), .breakS, (.caseS (.otherE [(.intLit 2)]) .breakS), (.defaultS .breakS)]))])) 2) = true := by decide +kernel

end Oclint
