import Verif.Tests.Support

/-!
# Tests of the repository, size

Written by `tools/repotests.py`; see `Verif/Tests/Support.lean`.
-/

namespace Oclint

set_option linter.all false

/-! ## `oclint-rules/test/size/CyclomaticComplexityRuleTest.cpp` -/

-- NoDecisionPoint
example : ((taggedReports (metricMessages (some [("CYCLOMATIC_COMPLEXITY".toList, "1".toList)]) .cyclomatic)
    ([.method ⟨[(.compound [])], (some (.compound [])), 0, 1, 1, false, false⟩] : List Construct)).isEmpty) = true := by decide +kernel

-- OneIfStatement
example : (taggedAt 0 (taggedReports (metricMessages (some [("CYCLOMATIC_COMPLEXITY".toList, "1".toList)]) .cyclomatic)
    ([.method ⟨[(.compound [(.ifS none (.intLit 1) (.compound []) none)])], (some (.compound [(.ifS none (.intLit 1) (.compound []) none)])), 0, 1, 1, false, false⟩] : List Construct))
    [0] "Cyclomatic Complexity Number 2 exceeds limit of 1".toList) = true := by decide +kernel

-- OneForStatement
example : (taggedAt 0 (taggedReports (metricMessages (some [("CYCLOMATIC_COMPLEXITY".toList, "1".toList)]) .cyclomatic)
    ([.method ⟨[(.compound [(.forS none none none (.compound []))])], (some (.compound [(.forS none none none (.compound []))])), 0, 1, 1, false, false⟩] : List Construct))
    [0] "Cyclomatic Complexity Number 2 exceeds limit of 1".toList) = true := by decide +kernel

-- OneObjCForCollectionStatement
example : (taggedAt 0 (taggedReports (metricMessages (some [("CYCLOMATIC_COMPLEXITY".toList, "1".toList)]) .cyclomatic)
    ([.method ⟨[(.compound [(.declS [(.varD ⟨0, "array".toList⟩ none)]), (.forIn (.declS [(.varD ⟨1, "one".toList⟩ none)]) (.cast .implicit .lvalueToRvalue (.declRef ⟨0, "array".toList⟩)) (.compound []))])], (some (.compound [(.declS [(.varD ⟨0, "array".toList⟩ none)]), (.forIn (.declS [(.varD ⟨1, "one".toList⟩ none)]) (.cast .implicit .lvalueToRvalue (.declRef ⟨0, "array".toList⟩)) (.compound []))])), 0, 1, 1, false, false⟩] : List Construct))
    [0] "Cyclomatic Complexity Number 2 exceeds limit of 1".toList) = true := by decide +kernel

-- OneWhileStatement
example : (taggedAt 0 (taggedReports (metricMessages (some [("CYCLOMATIC_COMPLEXITY".toList, "1".toList)]) .cyclomatic)
    ([.method ⟨[(.compound [(.whileS (.intLit 1) (.compound []))])], (some (.compound [(.whileS (.intLit 1) (.compound []))])), 0, 1, 1, false, false⟩] : List Construct))
    [0] "Cyclomatic Complexity Number 2 exceeds limit of 1".toList) = true := by decide +kernel

-- OneDoStatement
example : (taggedAt 0 (taggedReports (metricMessages (some [("CYCLOMATIC_COMPLEXITY".toList, "1".toList)]) .cyclomatic)
    ([.method ⟨[(.compound [(.doS (.compound []) (.intLit 1))])], (some (.compound [(.doS (.compound []) (.intLit 1))])), 0, 1, 1, false, false⟩] : List Construct))
    [0] "Cyclomatic Complexity Number 2 exceeds limit of 1".toList) = true := by decide +kernel

-- OneCaseStatement
example : (taggedAt 0 (taggedReports (metricMessages (some [("CYCLOMATIC_COMPLEXITY".toList, "1".toList)]) .cyclomatic)
    ([.method ⟨[(.compound [(.declS [(.varD ⟨0, "i".toList⟩ (some (.intLit 1)))]), (.switchS false (.cast .implicit .lvalueToRvalue (.declRef ⟨0, "i".toList⟩)) (.compound [(.caseS (.otherE [(.intLit 1)]) .breakS)]))])], (some (.compound [(.declS [(.varD ⟨0, "i".toList⟩ (some (.intLit 1)))]), (.switchS false (.cast .implicit .lvalueToRvalue (.declRef ⟨0, "i".toList⟩)) (.compound [(.caseS (.otherE [(.intLit 1)]) .breakS)]))])), 0, 1, 1, false, false⟩] : List Construct))
    [0] "Cyclomatic Complexity Number 2 exceeds limit of 1".toList) = true := by decide +kernel

-- TwoCaseStatements
example : (taggedAt 0 (taggedReports (metricMessages (some [("CYCLOMATIC_COMPLEXITY".toList, "1".toList)]) .cyclomatic)
    ([.method ⟨[(.compound [(.declS [(.varD ⟨0, "i".toList⟩ (some (.intLit 1)))]), (.switchS false (.cast .implicit .lvalueToRvalue (.declRef ⟨0, "i".toList⟩)) (.compound [(.caseS (.otherE [(.intLit 1)]) (.caseS (.otherE [(.intLit 2)]) .breakS))]))])], (some (.compound [(.declS [(.varD ⟨0, "i".toList⟩ (some (.intLit 1)))]), (.switchS false (.cast .implicit .lvalueToRvalue (.declRef ⟨0, "i".toList⟩)) (.compound [(.caseS (.otherE [(.intLit 1)]) (.caseS (.otherE [(.intLit 2)]) .breakS))]))])), 0, 1, 1, false, false⟩] : List Construct))
    [0] "Cyclomatic Complexity Number 3 exceeds limit of 1".toList) = true := by decide +kernel

-- OneCXXCatchStatement
example : (taggedAt 0 (taggedReports (metricMessages (some [("CYCLOMATIC_COMPLEXITY".toList, "1".toList)]) .cyclomatic)
    ([.method ⟨[(.compound [(.cxxTry (.compound []) [(.cxxCatch none (.compound []))])])], (some (.compound [(.cxxTry (.compound []) [(.cxxCatch none (.compound []))])])), 0, 1, 1, false, false⟩] : List Construct))
    [0] "Cyclomatic Complexity Number 2 exceeds limit of 1".toList) = true := by decide +kernel

-- OneObjCAtCatchStatement
example : (taggedAt 0 (taggedReports (metricMessages (some [("CYCLOMATIC_COMPLEXITY".toList, "1".toList)]) .cyclomatic)
    ([.method ⟨[(.compound [(.atTry (.compound []) [(.atCatch (.compound []))] none)])], (some (.compound [(.atTry (.compound []) [(.atCatch (.compound []))] none)])), 0, 1, 1, false, false⟩] : List Construct))
    [0] "Cyclomatic Complexity Number 2 exceeds limit of 1".toList) = true := by decide +kernel

-- OneConditionalOperator
example : (taggedAt 0 (taggedReports (metricMessages (some [("CYCLOMATIC_COMPLEXITY".toList, "1".toList)]) .cyclomatic)
    ([.method ⟨[(.compound [(.declS [(.varD ⟨0, "i".toList⟩ (some (.condOp (.intLit 0) (.intLit 1) (.unary .minus (.intLit 1)))))])])], (some (.compound [(.declS [(.varD ⟨0, "i".toList⟩ (some (.condOp (.intLit 0) (.intLit 1) (.unary .minus (.intLit 1)))))])])), 0, 1, 1, false, false⟩] : List Construct))
    [0] "Cyclomatic Complexity Number 2 exceeds limit of 1".toList) = true := by decide +kernel

-- OneLogicAndOperator
example : (taggedAt 0 (taggedReports (metricMessages (some [("CYCLOMATIC_COMPLEXITY".toList, "1".toList)]) .cyclomatic)
    ([.method ⟨[(.compound [(.declS [(.varD ⟨0, "b".toList⟩ (some (.binary .land (.intLit 1) (.intLit 0))))])])], (some (.compound [(.declS [(.varD ⟨0, "b".toList⟩ (some (.binary .land (.intLit 1) (.intLit 0))))])])), 0, 1, 1, false, false⟩] : List Construct))
    [0] "Cyclomatic Complexity Number 2 exceeds limit of 1".toList) = true := by decide +kernel

-- OneLogicOrOperator
example : (taggedAt 0 (taggedReports (metricMessages (some [("CYCLOMATIC_COMPLEXITY".toList, "1".toList)]) .cyclomatic)
    ([.method ⟨[(.compound [(.declS [(.varD ⟨0, "b".toList⟩ (some (.binary .lor (.intLit 1) (.intLit 0))))])])], (some (.compound [(.declS [(.varD ⟨0, "b".toList⟩ (some (.binary .lor (.intLit 1) (.intLit 0))))])])), 0, 1, 1, false, false⟩] : List Construct))
    [0] "Cyclomatic Complexity Number 2 exceeds limit of 1".toList) = true := by decide +kernel

-- ABinaryOperatorButHasNoEffectOnCCNCouting
example : ((taggedReports (metricMessages (some [("CYCLOMATIC_COMPLEXITY".toList, "1".toList)]) .cyclomatic)
    ([.method ⟨[(.compound [(.declS [(.varD ⟨0, "b".toList⟩ (some (.binary .eq (.intLit 1) (.intLit 0))))])])], (some (.compound [(.declS [(.varD ⟨0, "b".toList⟩ (some (.binary .eq (.intLit 1) (.intLit 0))))])])), 0, 1, 1, false, false⟩] : List Construct)).isEmpty) = true := by decide +kernel

-- SuppressCyclomaticComplexity
example : ((taggedReports (unsuppressed "high cyclomatic complexity".toList (metricMessages (some [("CYCLOMATIC_COMPLEXITY".toList, "1".toList)]) .cyclomatic))
    ([([(.decl (.plain [])), (.decl (.plain ["oclint:suppress[high cyclomatic complexity]".toList]))], .method ⟨[(.compound [(.declS [(.varD ⟨0, "b".toList⟩ (some (.binary .lor (.intLit 1) (.intLit 0))))])])], (some (.compound [(.declS [(.varD ⟨0, "b".toList⟩ (some (.binary .lor (.intLit 1) (.intLit 0))))])])), 0, 1, 1, false, false⟩)] : List (List NodeKind × Construct))).isEmpty) = true := by decide +kernel

/-! ## `oclint-rules/test/size/LongClassRuleTest.cpp` -/

-- CXXClass
example : (taggedAt 0 (taggedReports (metricMessages (some [("LONG_CLASS".toList, "0".toList)]) .longClass)
    ([.cls ⟨.cxxRecord, 1, 1, 0, 0⟩] : List Construct))
    [0] "C++ class with 1 lines exceeds limit of 0".toList) = true := by decide +kernel

-- CXXClass
example : (taggedAt 0 (taggedReports (metricMessages (some [("LONG_CLASS".toList, "0".toList)]) .longClass)
    ([.cls ⟨.cxxRecord, 1, 3, 0, 1⟩] : List Construct))
    [0] "C++ class with 3 lines exceeds limit of 0".toList) = true := by decide +kernel

-- CXXClassIgnoreOtherMethods
example : (taggedAt 0 (taggedReports (metricMessages (some [("LONG_CLASS".toList, "0".toList)]) .longClass)
    ([.cls ⟨.cxxRecord, 1, 1, 0, 0⟩] : List Construct))
    [0] "C++ class with 1 lines exceeds limit of 0".toList) = true := by decide +kernel

-- ObjCInterface
example : (taggedAt 0 (taggedReports (metricMessages (some [("LONG_CLASS".toList, "0".toList)]) .longClass)
    ([.cls ⟨.objcInterface, 1, 2, 0, 0⟩] : List Construct))
    [0] "Objective-C interface with 2 lines exceeds limit of 0".toList) = true := by decide +kernel

-- ObjCInterface
example : (taggedAt 0 (taggedReports (metricMessages (some [("LONG_CLASS".toList, "0".toList)]) .longClass)
    ([.cls ⟨.objcInterface, 1, 2, 0, 0⟩,
      .cls ⟨.objcInterface, 3, 5, 0, 1⟩] : List Construct))
    [0] "Objective-C interface with 2 lines exceeds limit of 0".toList) = true := by decide +kernel

-- ObjCInterface
example : (taggedAt 1 (taggedReports (metricMessages (some [("LONG_CLASS".toList, "0".toList)]) .longClass)
    ([.cls ⟨.objcInterface, 1, 2, 0, 0⟩,
      .cls ⟨.objcInterface, 3, 5, 0, 1⟩] : List Construct))
    [1] "Objective-C interface with 3 lines exceeds limit of 0".toList) = true := by decide +kernel

-- ObjCProtocol
example : (taggedAt 0 (taggedReports (metricMessages (some [("LONG_CLASS".toList, "0".toList)]) .longClass)
    ([.cls ⟨.objcProtocol, 1, 2, 0, 0⟩] : List Construct))
    [0] "Objective-C protocol with 2 lines exceeds limit of 0".toList) = true := by decide +kernel

-- ObjCCategory
example : (taggedAt 0 (taggedReports (metricMessages (some [("LONG_CLASS".toList, "0".toList)]) .longClass)
    ([.cls ⟨.objcInterface, 1, 2, 0, 0⟩,
      .cls ⟨.objcCategory, 3, 4, 0, 0⟩] : List Construct))
    [0] "Objective-C interface with 2 lines exceeds limit of 0".toList) = true := by decide +kernel

-- ObjCCategory
example : (taggedAt 1 (taggedReports (metricMessages (some [("LONG_CLASS".toList, "0".toList)]) .longClass)
    ([.cls ⟨.objcInterface, 1, 2, 0, 0⟩,
      .cls ⟨.objcCategory, 3, 4, 0, 0⟩] : List Construct))
    [1] "Objective-C category with 2 lines exceeds limit of 0".toList) = true := by decide +kernel

-- ObjCCategory
example : (taggedAt 0 (taggedReports (metricMessages (some [("LONG_CLASS".toList, "0".toList)]) .longClass)
    ([.cls ⟨.objcInterface, 1, 2, 0, 0⟩,
      .cls ⟨.objcInterface, 3, 5, 0, 1⟩,
      .cls ⟨.objcCategory, 6, 8, 0, 1⟩] : List Construct))
    [0] "Objective-C interface with 2 lines exceeds limit of 0".toList) = true := by decide +kernel

-- ObjCCategory
example : (taggedAt 1 (taggedReports (metricMessages (some [("LONG_CLASS".toList, "0".toList)]) .longClass)
    ([.cls ⟨.objcInterface, 1, 2, 0, 0⟩,
      .cls ⟨.objcInterface, 3, 5, 0, 1⟩,
      .cls ⟨.objcCategory, 6, 8, 0, 1⟩] : List Construct))
    [1] "Objective-C interface with 3 lines exceeds limit of 0".toList) = true := by decide +kernel

-- ObjCCategory
example : (taggedAt 2 (taggedReports (metricMessages (some [("LONG_CLASS".toList, "0".toList)]) .longClass)
    ([.cls ⟨.objcInterface, 1, 2, 0, 0⟩,
      .cls ⟨.objcInterface, 3, 5, 0, 1⟩,
      .cls ⟨.objcCategory, 6, 8, 0, 1⟩] : List Construct))
    [2] "Objective-C category with 3 lines exceeds limit of 0".toList) = true := by decide +kernel

-- ObjCImplementation
example : (taggedAt 0 (taggedReports (metricMessages (some [("LONG_CLASS".toList, "0".toList)]) .longClass)
    ([.cls ⟨.objcInterface, 1, 2, 0, 0⟩,
      .cls ⟨.objcInterface, 3, 4, 0, 0⟩,
      .cls ⟨.objcImpl, 5, 6, 0, 0⟩] : List Construct))
    [0] "Objective-C interface with 2 lines exceeds limit of 0".toList) = true := by decide +kernel

-- ObjCImplementation
example : (taggedAt 1 (taggedReports (metricMessages (some [("LONG_CLASS".toList, "0".toList)]) .longClass)
    ([.cls ⟨.objcInterface, 1, 2, 0, 0⟩,
      .cls ⟨.objcInterface, 3, 4, 0, 0⟩,
      .cls ⟨.objcImpl, 5, 6, 0, 0⟩] : List Construct))
    [1] "Objective-C interface with 2 lines exceeds limit of 0".toList) = true := by decide +kernel

-- ObjCImplementation
example : (taggedAt 2 (taggedReports (metricMessages (some [("LONG_CLASS".toList, "0".toList)]) .longClass)
    ([.cls ⟨.objcInterface, 1, 2, 0, 0⟩,
      .cls ⟨.objcInterface, 3, 4, 0, 0⟩,
      .cls ⟨.objcImpl, 5, 6, 0, 0⟩] : List Construct))
    [2] "Objective-C implementation with 2 lines exceeds limit of 0".toList) = true := by decide +kernel

-- ObjCImplementation
example : (taggedAt 0 (taggedReports (metricMessages (some [("LONG_CLASS".toList, "0".toList)]) .longClass)
    ([.cls ⟨.objcInterface, 1, 2, 0, 0⟩,
      .cls ⟨.objcInterface, 3, 5, 0, 1⟩,
      .cls ⟨.objcImpl, 6, 8, 0, 1⟩] : List Construct))
    [0] "Objective-C interface with 2 lines exceeds limit of 0".toList) = true := by decide +kernel

-- ObjCImplementation
example : (taggedAt 1 (taggedReports (metricMessages (some [("LONG_CLASS".toList, "0".toList)]) .longClass)
    ([.cls ⟨.objcInterface, 1, 2, 0, 0⟩,
      .cls ⟨.objcInterface, 3, 5, 0, 1⟩,
      .cls ⟨.objcImpl, 6, 8, 0, 1⟩] : List Construct))
    [1] "Objective-C interface with 3 lines exceeds limit of 0".toList) = true := by decide +kernel

-- ObjCImplementation
example : (taggedAt 2 (taggedReports (metricMessages (some [("LONG_CLASS".toList, "0".toList)]) .longClass)
    ([.cls ⟨.objcInterface, 1, 2, 0, 0⟩,
      .cls ⟨.objcInterface, 3, 5, 0, 1⟩,
      .cls ⟨.objcImpl, 6, 8, 0, 1⟩] : List Construct))
    [2] "Objective-C implementation with 3 lines exceeds limit of 0".toList) = true := by decide +kernel

/-! ## `oclint-rules/test/size/LongLineRuleTest.cpp` -/

-- GetNumberOfCharactersForALine
example : (violationAt 0 (longLineViolations false (some [("LONG_LINE".toList, "0".toList)]) ⟨"input.m".toList, some [], [(true, [⟨(.plain []), 1, 1⟩])], "void m() {}".toList⟩) (1, 1, 1, 11) "Line with 11 characters exceeds limit of 0".toList) = true := by decide +kernel

-- GetNumberOfCharactersForThreeLines
example : (violationAt 0 (longLineViolations false (some [("LONG_LINE".toList, "0".toList)]) ⟨"input.m".toList, some [], [(true, [⟨(.plain []), 1, 3⟩])], "void m() {\n  \n}".toList⟩) (1, 1, 1, 10) "Line with 10 characters exceeds limit of 0".toList) = true := by decide +kernel

-- GetNumberOfCharactersForThreeLines
example : (violationAt 1 (longLineViolations false (some [("LONG_LINE".toList, "0".toList)]) ⟨"input.m".toList, some [], [(true, [⟨(.plain []), 1, 3⟩])], "void m() {\n  \n}".toList⟩) (2, 1, 2, 2) "Line with 2 characters exceeds limit of 0".toList) = true := by decide +kernel

-- GetNumberOfCharactersForThreeLines
example : (violationAt 2 (longLineViolations false (some [("LONG_LINE".toList, "0".toList)]) ⟨"input.m".toList, some [], [(true, [⟨(.plain []), 1, 3⟩])], "void m() {\n  \n}".toList⟩) (3, 1, 3, 1) "Line with 1 characters exceeds limit of 0".toList) = true := by decide +kernel

/-! ## `oclint-rules/test/size/LongMethodRuleTest.cpp` -/

-- OneLine
example : (taggedAt 0 (taggedReports (metricMessages (some [("LONG_METHOD".toList, "0".toList)]) .longMethod)
    ([.method ⟨[(.compound [])], (some (.compound [])), 0, 1, 1, false, false⟩] : List Construct))
    [0] "Method with 1 lines exceeds limit of 0".toList) = true := by decide +kernel

-- OneLineWithoutBraces
example : (taggedAt 0 (taggedReports (metricMessages (some [("LONG_METHOD".toList, "0".toList)]) .longMethod)
    ([.method ⟨[(.cxxTry (.compound []) [(.cxxCatch none (.compound []))])], (some (.cxxTry (.compound []) [(.cxxCatch none (.compound []))])), 0, 1, 1, false, false⟩] : List Construct))
    [0] "Method with 1 lines exceeds limit of 0".toList) = true := by decide +kernel

-- TweLines
example : (taggedAt 0 (taggedReports (metricMessages (some [("LONG_METHOD".toList, "0".toList)]) .longMethod)
    ([.method ⟨[(.compound [])], (some (.compound [])), 0, 1, 2, false, false⟩] : List Construct))
    [0] "Method with 2 lines exceeds limit of 0".toList) = true := by decide +kernel

/-! ## `oclint-rules/test/size/NPathComplexityRuleTest.cpp` -/

-- EmptyMethod
example : ((taggedReports (metricMessages (some [("NPATH_COMPLEXITY".toList, "1".toList)]) .npath)
    ([.method ⟨[(.compound [])], (some (.compound [])), 0, 1, 1, false, false⟩] : List Construct)).isEmpty) = true := by decide +kernel

-- IfStmtWithConstantConditionAndEmptyThenCompoundStmt
example : (taggedAt 0 (taggedReports (metricMessages (some [("NPATH_COMPLEXITY".toList, "1".toList)]) .npath)
    ([.method ⟨[(.compound [(.ifS none (.intLit 1) (.compound []) none)])], (some (.compound [(.ifS none (.intLit 1) (.compound []) none)])), 0, 1, 1, false, false⟩] : List Construct))
    [0] "NPath Complexity Number 2 exceeds limit of 1".toList) = true := by decide +kernel

-- IfStmtWithOneLogicAndOperatorConditionAndEmptyThenCompoundStmt
example : (taggedAt 0 (taggedReports (metricMessages (some [("NPATH_COMPLEXITY".toList, "1".toList)]) .npath)
    ([.method ⟨[(.compound [(.ifS none (.binary .land (.intLit 1) (.intLit 0)) (.compound []) none)])], (some (.compound [(.ifS none (.binary .land (.intLit 1) (.intLit 0)) (.compound []) none)])), 0, 1, 1, false, false⟩] : List Construct))
    [0] "NPath Complexity Number 3 exceeds limit of 1".toList) = true := by decide +kernel

-- IfStmtWithOneLogicOrOperatorConditionAndEmptyThenCompoundStmt
example : (taggedAt 0 (taggedReports (metricMessages (some [("NPATH_COMPLEXITY".toList, "1".toList)]) .npath)
    ([.method ⟨[(.compound [(.ifS none (.binary .lor (.intLit 1) (.intLit 0)) (.compound []) none)])], (some (.compound [(.ifS none (.binary .lor (.intLit 1) (.intLit 0)) (.compound []) none)])), 0, 1, 1, false, false⟩] : List Construct))
    [0] "NPath Complexity Number 3 exceeds limit of 1".toList) = true := by decide +kernel

-- IfStmtWithMultipleLogicAndOrOperatorsConditionAndEmptyThenCompoundStmt
example : (taggedAt 0 (taggedReports (metricMessages (some [("NPATH_COMPLEXITY".toList, "1".toList)]) .npath)
    ([.method ⟨[(.compound [(.ifS none (.binary .lor (.intLit 0) (.binary .land (.intLit 1) (.intLit 0))) (.compound []) none)])], (some (.compound [(.ifS none (.binary .lor (.intLit 0) (.binary .land (.intLit 1) (.intLit 0))) (.compound []) none)])), 0, 1, 1, false, false⟩] : List Construct))
    [0] "NPath Complexity Number 4 exceeds limit of 1".toList) = true := by decide +kernel

-- IfElseStmtWithConstantConditionAndEmptyThenCompoundStmt
example : (taggedAt 0 (taggedReports (metricMessages (some [("NPATH_COMPLEXITY".toList, "1".toList)]) .npath)
    ([.method ⟨[(.compound [(.ifS none (.intLit 1) (.compound []) (some (.compound [])))])], (some (.compound [(.ifS none (.intLit 1) (.compound []) (some (.compound [])))])), 0, 1, 1, false, false⟩] : List Construct))
    [0] "NPath Complexity Number 2 exceeds limit of 1".toList) = true := by decide +kernel

-- IfElseStmtWithOneLogicAndOperatorConditionAndEmptyThenCompoundStmt
example : (taggedAt 0 (taggedReports (metricMessages (some [("NPATH_COMPLEXITY".toList, "1".toList)]) .npath)
    ([.method ⟨[(.compound [(.ifS none (.binary .land (.intLit 1) (.intLit 0)) (.compound []) (some (.compound [])))])], (some (.compound [(.ifS none (.binary .land (.intLit 1) (.intLit 0)) (.compound []) (some (.compound [])))])), 0, 1, 1, false, false⟩] : List Construct))
    [0] "NPath Complexity Number 3 exceeds limit of 1".toList) = true := by decide +kernel

-- IfElseStmtWithOneLogicOrOperatorConditionAndEmptyThenCompoundStmt
example : (taggedAt 0 (taggedReports (metricMessages (some [("NPATH_COMPLEXITY".toList, "1".toList)]) .npath)
    ([.method ⟨[(.compound [(.ifS none (.binary .lor (.intLit 1) (.intLit 0)) (.compound []) (some (.compound [])))])], (some (.compound [(.ifS none (.binary .lor (.intLit 1) (.intLit 0)) (.compound []) (some (.compound [])))])), 0, 1, 1, false, false⟩] : List Construct))
    [0] "NPath Complexity Number 3 exceeds limit of 1".toList) = true := by decide +kernel

-- IfElseStmtWithMultipleLogicAndOrOperatorsConditionAndEmptyThenCompoundStmt
example : (taggedAt 0 (taggedReports (metricMessages (some [("NPATH_COMPLEXITY".toList, "1".toList)]) .npath)
    ([.method ⟨[(.compound [(.ifS none (.binary .lor (.intLit 0) (.binary .land (.intLit 1) (.intLit 0))) (.compound []) (some (.compound [])))])], (some (.compound [(.ifS none (.binary .lor (.intLit 0) (.binary .land (.intLit 1) (.intLit 0))) (.compound []) (some (.compound [])))])), 0, 1, 1, false, false⟩] : List Construct))
    [0] "NPath Complexity Number 4 exceeds limit of 1".toList) = true := by decide +kernel

-- NestedIfStmt
example : (taggedAt 0 (taggedReports (metricMessages (some [("NPATH_COMPLEXITY".toList, "1".toList)]) .npath)
    ([.method ⟨[(.compound [(.ifS none (.intLit 1) (.compound [(.ifS none (.intLit 1) (.compound []) none)]) none)])], (some (.compound [(.ifS none (.intLit 1) (.compound [(.ifS none (.intLit 1) (.compound []) none)]) none)])), 0, 1, 1, false, false⟩] : List Construct))
    [0] "NPath Complexity Number 3 exceeds limit of 1".toList) = true := by decide +kernel

-- NestedIfElseStmt
example : (taggedAt 0 (taggedReports (metricMessages (some [("NPATH_COMPLEXITY".toList, "1".toList)]) .npath)
    ([.method ⟨[(.compound [(.ifS none (.intLit 1) (.compound [(.ifS none (.intLit 1) (.compound []) (some (.compound [])))]) (some (.compound [(.ifS none (.intLit 1) (.compound []) (some (.compound [])))])))])], (some (.compound [(.ifS none (.intLit 1) (.compound [(.ifS none (.intLit 1) (.compound []) (some (.compound [])))]) (some (.compound [(.ifS none (.intLit 1) (.compound []) (some (.compound [])))])))])), 0, 1, 1, false, false⟩] : List Construct))
    [0] "NPath Complexity Number 4 exceeds limit of 1".toList) = true := by decide +kernel

-- WhileStmtWithConstantConditionAndEmptyCompoundStmt
example : (taggedAt 0 (taggedReports (metricMessages (some [("NPATH_COMPLEXITY".toList, "1".toList)]) .npath)
    ([.method ⟨[(.compound [(.whileS (.intLit 1) (.compound []))])], (some (.compound [(.whileS (.intLit 1) (.compound []))])), 0, 1, 1, false, false⟩] : List Construct))
    [0] "NPath Complexity Number 2 exceeds limit of 1".toList) = true := by decide +kernel

-- WhileStmtWithOneLogicAndOperatorConditionAndEmptyCompoundStmt
example : (taggedAt 0 (taggedReports (metricMessages (some [("NPATH_COMPLEXITY".toList, "1".toList)]) .npath)
    ([.method ⟨[(.compound [(.whileS (.binary .land (.intLit 1) (.intLit 0)) (.compound []))])], (some (.compound [(.whileS (.binary .land (.intLit 1) (.intLit 0)) (.compound []))])), 0, 1, 1, false, false⟩] : List Construct))
    [0] "NPath Complexity Number 3 exceeds limit of 1".toList) = true := by decide +kernel

-- WhileStmtWithOneLogicOrOperatorConditionAndEmptyCompoundStmt
example : (taggedAt 0 (taggedReports (metricMessages (some [("NPATH_COMPLEXITY".toList, "1".toList)]) .npath)
    ([.method ⟨[(.compound [(.whileS (.binary .lor (.intLit 1) (.intLit 0)) (.compound []))])], (some (.compound [(.whileS (.binary .lor (.intLit 1) (.intLit 0)) (.compound []))])), 0, 1, 1, false, false⟩] : List Construct))
    [0] "NPath Complexity Number 3 exceeds limit of 1".toList) = true := by decide +kernel

-- DoWhileStmtWithConstantConditionAndEmptyCompoundStmt
example : (taggedAt 0 (taggedReports (metricMessages (some [("NPATH_COMPLEXITY".toList, "1".toList)]) .npath)
    ([.method ⟨[(.compound [(.doS (.compound []) (.intLit 1))])], (some (.compound [(.doS (.compound []) (.intLit 1))])), 0, 1, 1, false, false⟩] : List Construct))
    [0] "NPath Complexity Number 2 exceeds limit of 1".toList) = true := by decide +kernel

-- DoWhileStmtWithOneLogicAndOperatorConditionAndEmptyCompoundStmt
example : (taggedAt 0 (taggedReports (metricMessages (some [("NPATH_COMPLEXITY".toList, "1".toList)]) .npath)
    ([.method ⟨[(.compound [(.doS (.compound []) (.binary .land (.intLit 1) (.intLit 0)))])], (some (.compound [(.doS (.compound []) (.binary .land (.intLit 1) (.intLit 0)))])), 0, 1, 1, false, false⟩] : List Construct))
    [0] "NPath Complexity Number 3 exceeds limit of 1".toList) = true := by decide +kernel

-- DoWhileStmtWithOneLogicOrOperatorConditionAndEmptyCompoundStmt
example : (taggedAt 0 (taggedReports (metricMessages (some [("NPATH_COMPLEXITY".toList, "1".toList)]) .npath)
    ([.method ⟨[(.compound [(.doS (.compound []) (.binary .lor (.intLit 1) (.intLit 0)))])], (some (.compound [(.doS (.compound []) (.binary .lor (.intLit 1) (.intLit 0)))])), 0, 1, 1, false, false⟩] : List Construct))
    [0] "NPath Complexity Number 3 exceeds limit of 1".toList) = true := by decide +kernel

-- ForStmtWithSimpleConditionAndEmptyCompoundStmt
example : (taggedAt 0 (taggedReports (metricMessages (some [("NPATH_COMPLEXITY".toList, "1".toList)]) .npath)
    ([.method ⟨[(.compound [(.forS (some (.declS [(.varD ⟨0, "i".toList⟩ (some (.intLit 0)))])) (some (.binary .lt (.cast .implicit .lvalueToRvalue (.declRef ⟨0, "i".toList⟩)) (.intLit 1))) (some (.unary .postInc (.declRef ⟨0, "i".toList⟩))) (.compound []))])], (some (.compound [(.forS (some (.declS [(.varD ⟨0, "i".toList⟩ (some (.intLit 0)))])) (some (.binary .lt (.cast .implicit .lvalueToRvalue (.declRef ⟨0, "i".toList⟩)) (.intLit 1))) (some (.unary .postInc (.declRef ⟨0, "i".toList⟩))) (.compound []))])), 0, 1, 1, false, false⟩] : List Construct))
    [0] "NPath Complexity Number 3 exceeds limit of 1".toList) = true := by decide +kernel

-- ForStmtWithOneLogicAndOperatorConditionAndEmptyCompoundStmt
example : (taggedAt 0 (taggedReports (metricMessages (some [("NPATH_COMPLEXITY".toList, "1".toList)]) .npath)
    ([.method ⟨[(.compound [(.forS (some (.declS [(.varD ⟨0, "i".toList⟩ (some (.intLit 0)))])) (some (.binary .land (.binary .lt (.cast .implicit .lvalueToRvalue (.declRef ⟨0, "i".toList⟩)) (.intLit 1)) (.intLit 0))) (some (.unary .postInc (.declRef ⟨0, "i".toList⟩))) (.compound []))])], (some (.compound [(.forS (some (.declS [(.varD ⟨0, "i".toList⟩ (some (.intLit 0)))])) (some (.binary .land (.binary .lt (.cast .implicit .lvalueToRvalue (.declRef ⟨0, "i".toList⟩)) (.intLit 1)) (.intLit 0))) (some (.unary .postInc (.declRef ⟨0, "i".toList⟩))) (.compound []))])), 0, 1, 1, false, false⟩] : List Construct))
    [0] "NPath Complexity Number 4 exceeds limit of 1".toList) = true := by decide +kernel

-- ObjCForeachStmtWithEmptyCompoundStmt
example : (taggedAt 0 (taggedReports (metricMessages (some [("NPATH_COMPLEXITY".toList, "1".toList)]) .npath)
    ([.method ⟨[(.compound [(.declS [(.varD ⟨0, "anArray".toList⟩ none)]), (.forIn (.declS [(.varD ⟨1, "it".toList⟩ none)]) (.cast .implicit .lvalueToRvalue (.declRef ⟨0, "anArray".toList⟩)) (.compound []))])], (some (.compound [(.declS [(.varD ⟨0, "anArray".toList⟩ none)]), (.forIn (.declS [(.varD ⟨1, "it".toList⟩ none)]) (.cast .implicit .lvalueToRvalue (.declRef ⟨0, "anArray".toList⟩)) (.compound []))])), 0, 1, 1, false, false⟩] : List Construct))
    [0] "NPath Complexity Number 3 exceeds limit of 1".toList) = true := by decide +kernel

-- ObjCForeachStmtWithCompoundStmtWithIfStmt
example : (taggedAt 0 (taggedReports (metricMessages (some [("NPATH_COMPLEXITY".toList, "1".toList)]) .npath)
    ([.method ⟨[(.compound [(.declS [(.varD ⟨0, "anArray".toList⟩ none)]), (.forIn (.declS [(.varD ⟨1, "it".toList⟩ none)]) (.cast .implicit .lvalueToRvalue (.declRef ⟨0, "anArray".toList⟩)) (.compound [(.ifS none (.intLit 1) (.compound []) none)]))])], (some (.compound [(.declS [(.varD ⟨0, "anArray".toList⟩ none)]), (.forIn (.declS [(.varD ⟨1, "it".toList⟩ none)]) (.cast .implicit .lvalueToRvalue (.declRef ⟨0, "anArray".toList⟩)) (.compound [(.ifS none (.intLit 1) (.compound []) none)]))])), 0, 1, 1, false, false⟩] : List Construct))
    [0] "NPath Complexity Number 4 exceeds limit of 1".toList) = true := by decide +kernel

-- SwitchStmtWithSimpleConditionAndEmptyBody
example : ((taggedReports (metricMessages (some [("NPATH_COMPLEXITY".toList, "1".toList)]) .npath)
    ([.method ⟨[(.compound [(.declS [(.varD ⟨0, "i".toList⟩ none)]), (.switchS false (.cast .implicit .lvalueToRvalue (.declRef ⟨0, "i".toList⟩)) (.compound []))])], (some (.compound [(.declS [(.varD ⟨0, "i".toList⟩ none)]), (.switchS false (.cast .implicit .lvalueToRvalue (.declRef ⟨0, "i".toList⟩)) (.compound []))])), 0, 1, 1, false, false⟩] : List Construct)).isEmpty) = true := by decide +kernel

-- SwitchStmtWithSimpleConditionAndOneCase
example : ((taggedReports (metricMessages (some [("NPATH_COMPLEXITY".toList, "1".toList)]) .npath)
    ([.method ⟨[(.compound [(.declS [(.varD ⟨0, "i".toList⟩ none)]), (.switchS false (.cast .implicit .lvalueToRvalue (.declRef ⟨0, "i".toList⟩)) (.compound [(.caseS (.otherE [(.intLit 1)]) .breakS)]))])], (some (.compound [(.declS [(.varD ⟨0, "i".toList⟩ none)]), (.switchS false (.cast .implicit .lvalueToRvalue (.declRef ⟨0, "i".toList⟩)) (.compound [(.caseS (.otherE [(.intLit 1)]) .breakS)]))])), 0, 1, 1, false, false⟩] : List Construct)).isEmpty) = true := by decide +kernel

-- SwitchStmtWithSimpleConditionAndOneCaseOneDefault
example : (taggedAt 0 (taggedReports (metricMessages (some [("NPATH_COMPLEXITY".toList, "1".toList)]) .npath)
    ([.method ⟨[(.compound [(.declS [(.varD ⟨0, "i".toList⟩ none)]), (.switchS false (.cast .implicit .lvalueToRvalue (.declRef ⟨0, "i".toList⟩)) (.compound [(.caseS (.otherE [(.intLit 1)]) .breakS), (.defaultS .breakS)]))])], (some (.compound [(.declS [(.varD ⟨0, "i".toList⟩ none)]), (.switchS false (.cast .implicit .lvalueToRvalue (.declRef ⟨0, "i".toList⟩)) (.compound [(.caseS (.otherE [(.intLit 1)]) .breakS), (.defaultS .breakS)]))])), 0, 1, 1, false, false⟩] : List Construct))
    [0] "NPath Complexity Number 2 exceeds limit of 1".toList) = true := by decide +kernel

-- SwitchStmtWithSimpleConditionAndTwoCasesOneDefault
example : (taggedAt 0 (taggedReports (metricMessages (some [("NPATH_COMPLEXITY".toList, "1".toList)]) .npath)
    ([.method ⟨[(.compound [(.declS [(.varD ⟨0, "i".toList⟩ none)]), (.switchS false (.cast .implicit .lvalueToRvalue (.declRef ⟨0, "i".toList⟩)) (.compound [(.caseS (.otherE [(.intLit 1)]) .breakS), (.caseS (.otherE [(.intLit 2)]) .breakS), (.defaultS .breakS)]))])], (some (.compound [(.declS [(.varD ⟨0, "i".toList⟩ none)]), (.switchS false (.cast .implicit .lvalueToRvalue (.declRef ⟨0, "i".toList⟩)) (.compound [(.caseS (.otherE [(.intLit 1)]) .breakS), (.caseS (.otherE [(.intLit 2)]) .breakS), (.defaultS .breakS)]))])), 0, 1, 1, false, false⟩] : List Construct))
    [0] "NPath Complexity Number 3 exceeds limit of 1".toList) = true := by decide +kernel

-- SwitchStmtWithSimpleConditionAndOneCaseOneIfOneDefault
example : (taggedAt 0 (taggedReports (metricMessages (some [("NPATH_COMPLEXITY".toList, "1".toList)]) .npath)
    ([.method ⟨[(.compound [(.declS [(.varD ⟨0, "i".toList⟩ none)]), (.switchS false (.cast .implicit .lvalueToRvalue (.declRef ⟨0, "i".toList⟩)) (.compound [(.caseS (.otherE [(.intLit 1)]) .breakS), (.ifS none (.binary .land (.binary .gt (.cast .implicit .lvalueToRvalue (.declRef ⟨0, "i".toList⟩)) (.intLit 0)) (.binary .lt (.cast .implicit .lvalueToRvalue (.declRef ⟨0, "i".toList⟩)) (.intLit 0))) (.compound []) none), (.defaultS .breakS)]))])], (some (.compound [(.declS [(.varD ⟨0, "i".toList⟩ none)]), (.switchS false (.cast .implicit .lvalueToRvalue (.declRef ⟨0, "i".toList⟩)) (.compound [(.caseS (.otherE [(.intLit 1)]) .breakS), (.ifS none (.binary .land (.binary .gt (.cast .implicit .lvalueToRvalue (.declRef ⟨0, "i".toList⟩)) (.intLit 0)) (.binary .lt (.cast .implicit .lvalueToRvalue (.declRef ⟨0, "i".toList⟩)) (.intLit 0))) (.compound []) none), (.defaultS .breakS)]))])), 0, 1, 1, false, false⟩] : List Construct))
    [0] "NPath Complexity Number 4 exceeds limit of 1".toList) = true := by decide +kernel

-- SwitchStmtWithSimpleConditionAndOneCaseAsIfOneDefault
example : (taggedAt 0 (taggedReports (metricMessages (some [("NPATH_COMPLEXITY".toList, "1".toList)]) .npath)
    ([.method ⟨[(.compound [(.declS [(.varD ⟨0, "i".toList⟩ none)]), (.switchS false (.cast .implicit .lvalueToRvalue (.declRef ⟨0, "i".toList⟩)) (.compound [(.caseS (.otherE [(.intLit 1)]) (.ifS none (.binary .land (.binary .gt (.cast .implicit .lvalueToRvalue (.declRef ⟨0, "i".toList⟩)) (.intLit 0)) (.binary .lt (.cast .implicit .lvalueToRvalue (.declRef ⟨0, "i".toList⟩)) (.intLit 0))) (.compound []) none)), .breakS, (.defaultS .breakS)]))])], (some (.compound [(.declS [(.varD ⟨0, "i".toList⟩ none)]), (.switchS false (.cast .implicit .lvalueToRvalue (.declRef ⟨0, "i".toList⟩)) (.compound [(.caseS (.otherE [(.intLit 1)]) (.ifS none (.binary .land (.binary .gt (.cast .implicit .lvalueToRvalue (.declRef ⟨0, "i".toList⟩)) (.intLit 0)) (.binary .lt (.cast .implicit .lvalueToRvalue (.declRef ⟨0, "i".toList⟩)) (.intLit 0))) (.compound []) none)), .breakS, (.defaultS .breakS)]))])), 0, 1, 1, false, false⟩] : List Construct))
    [0] "NPath Complexity Number 4 exceeds limit of 1".toList) = true := by decide +kernel

-- SwitchStmtWithSimpleConditionAndOneCaseAsTwoIfsOneDefault
example : (taggedAt 0 (taggedReports (metricMessages (some [("NPATH_COMPLEXITY".toList, "1".toList)]) .npath)
    ([.method ⟨[(.compound [(.declS [(.varD ⟨0, "i".toList⟩ none)]), (.switchS false (.cast .implicit .lvalueToRvalue (.declRef ⟨0, "i".toList⟩)) (.compound [(.caseS (.otherE [(.intLit 1)]) (.ifS none (.binary .gt (.cast .implicit .lvalueToRvalue (.declRef ⟨0, "i".toList⟩)) (.intLit 0)) (.compound []) none)), (.ifS none (.binary .lt (.cast .implicit .lvalueToRvalue (.declRef ⟨0, "i".toList⟩)) (.intLit 0)) (.compound []) none), .breakS, (.defaultS .breakS)]))])], (some (.compound [(.declS [(.varD ⟨0, "i".toList⟩ none)]), (.switchS false (.cast .implicit .lvalueToRvalue (.declRef ⟨0, "i".toList⟩)) (.compound [(.caseS (.otherE [(.intLit 1)]) (.ifS none (.binary .gt (.cast .implicit .lvalueToRvalue (.declRef ⟨0, "i".toList⟩)) (.intLit 0)) (.compound []) none)), (.ifS none (.binary .lt (.cast .implicit .lvalueToRvalue (.declRef ⟨0, "i".toList⟩)) (.intLit 0)) (.compound []) none), .breakS, (.defaultS .breakS)]))])), 0, 1, 1, false, false⟩] : List Construct))
    [0] "NPath Complexity Number 5 exceeds limit of 1".toList) = true := by decide +kernel

-- BasicConditionalOperator
example : (taggedAt 0 (taggedReports (metricMessages (some [("NPATH_COMPLEXITY".toList, "1".toList)]) .npath)
    ([.method ⟨[(.compound [(.ifS none (.condOp (.intLit 1) (.intLit 2) (.intLit 3)) (.compound []) none)])], (some (.compound [(.ifS none (.condOp (.intLit 1) (.intLit 2) (.intLit 3)) (.compound []) none)])), 0, 1, 1, false, false⟩] : List Construct))
    [0] "NPath Complexity Number 4 exceeds limit of 1".toList) = true := by decide +kernel

-- NastingConditionalOperator
example : (taggedAt 0 (taggedReports (metricMessages (some [("NPATH_COMPLEXITY".toList, "1".toList)]) .npath)
    ([.method ⟨[(.compound [(.ifS none (.condOp (.intLit 1) (.paren (.condOp (.intLit 2) (.intLit 3) (.intLit 4))) (.paren (.condOp (.intLit 5) (.intLit 6) (.intLit 7)))) (.compound []) none)])], (some (.compound [(.ifS none (.condOp (.intLit 1) (.paren (.condOp (.intLit 2) (.intLit 3) (.intLit 4))) (.paren (.condOp (.intLit 5) (.intLit 6) (.intLit 7)))) (.compound []) none)])), 0, 1, 1, false, false⟩] : List Construct))
    [0] "NPath Complexity Number 8 exceeds limit of 1".toList) = true := by decide +kernel

-- SuppressHighNPathComplexity
example : ((taggedReports (unsuppressed "high npath complexity".toList (metricMessages (some [("NPATH_COMPLEXITY".toList, "1".toList)]) .npath))
    ([([(.decl (.plain [])), (.decl (.plain ["oclint:suppress[high npath complexity]".toList]))], .method ⟨[(.compound [(.ifS none (.condOp (.intLit 1) (.intLit 2) (.intLit 3)) (.compound []) none)])], (some (.compound [(.ifS none (.condOp (.intLit 1) (.intLit 2) (.intLit 3)) (.compound []) none)])), 0, 1, 1, false, false⟩)] : List (List NodeKind × Construct))).isEmpty) = true := by decide +kernel

/-! ## `oclint-rules/test/size/NcssMethodCountRuleTest.cpp` -/

-- EmptyFunction
example : ((taggedReports (metricMessages (some [("NCSS_METHOD".toList, "1".toList)]) .ncss)
    ([.method ⟨[(.compound [])], (some (.compound [])), 0, 1, 1, false, false⟩] : List Construct)).isEmpty) = true := by decide +kernel

-- NullStmtsDoNotContribute
example : ((taggedReports (metricMessages (some [("NCSS_METHOD".toList, "1".toList)]) .ncss)
    ([.method ⟨[(.compound [.nullS, .nullS, .nullS, .nullS, .nullS])], (some (.compound [.nullS, .nullS, .nullS, .nullS, .nullS])), 0, 1, 6, false, false⟩] : List Construct)).isEmpty) = true := by decide +kernel

-- SemiColonAfterDeclStmtCount
example : (taggedAt 0 (taggedReports (metricMessages (some [("NCSS_METHOD".toList, "1".toList)]) .ncss)
    ([.method ⟨[(.compound [(.declS [(.varD ⟨0, "a".toList⟩ (some (.intLit 1)))])])], (some (.compound [(.declS [(.varD ⟨0, "a".toList⟩ (some (.intLit 1)))])])), 0, 1, 1, false, false⟩] : List Construct))
    [0] "Method of 2 non-commenting source statements exceeds limit of 1".toList) = true := by decide +kernel

-- DeclStmtWithManyVariables
example : (taggedAt 0 (taggedReports (metricMessages (some [("NCSS_METHOD".toList, "1".toList)]) .ncss)
    ([.method ⟨[(.compound [(.declS [(.varD ⟨0, "a".toList⟩ (some (.intLit 1))), (.varD ⟨1, "b".toList⟩ (some (.intLit 2))), (.varD ⟨2, "c".toList⟩ (some (.intLit 3)))])])], (some (.compound [(.declS [(.varD ⟨0, "a".toList⟩ (some (.intLit 1))), (.varD ⟨1, "b".toList⟩ (some (.intLit 2))), (.varD ⟨2, "c".toList⟩ (some (.intLit 3)))])])), 0, 1, 1, false, false⟩] : List Construct))
    [0] "Method of 2 non-commenting source statements exceeds limit of 1".toList) = true := by decide +kernel

-- MethodCall
example : (taggedAt 0 (taggedReports (metricMessages (some [("NCSS_METHOD".toList, "1".toList)]) .ncss)
    ([.method ⟨[], none, 0, 1, 1, false, false⟩,
      .method ⟨[(.compound [(.call (.cast .implicit .other (.declRef ⟨0, "n".toList⟩)) [])])], (some (.compound [(.call (.cast .implicit .other (.declRef ⟨0, "n".toList⟩)) [])])), 0, 1, 1, false, false⟩] : List Construct))
    [1] "Method of 2 non-commenting source statements exceeds limit of 1".toList) = true := by decide +kernel

-- EmptyCompoundStmt
example : ((taggedReports (metricMessages (some [("NCSS_METHOD".toList, "1".toList)]) .ncss)
    ([.method ⟨[(.compound [(.compound []), (.compound []), (.compound []), (.compound []), (.compound [])])], (some (.compound [(.compound []), (.compound []), (.compound []), (.compound []), (.compound [])])), 0, 1, 6, false, false⟩] : List Construct)).isEmpty) = true := by decide +kernel

-- IfStatement
example : (taggedAt 0 (taggedReports (metricMessages (some [("NCSS_METHOD".toList, "1".toList)]) .ncss)
    ([.method ⟨[(.compound [(.ifS none (.intLit 1) (.compound []) none)])], (some (.compound [(.ifS none (.intLit 1) (.compound []) none)])), 0, 1, 1, false, false⟩] : List Construct))
    [0] "Method of 2 non-commenting source statements exceeds limit of 1".toList) = true := by decide +kernel

-- IfStatementWithElse
example : (taggedAt 0 (taggedReports (metricMessages (some [("NCSS_METHOD".toList, "1".toList)]) .ncss)
    ([.method ⟨[(.compound [(.ifS none (.intLit 1) (.compound []) (some (.compound [])))])], (some (.compound [(.ifS none (.intLit 1) (.compound []) (some (.compound [])))])), 0, 1, 1, false, false⟩] : List Construct))
    [0] "Method of 3 non-commenting source statements exceeds limit of 1".toList) = true := by decide +kernel

-- ForStatement
example : (taggedAt 0 (taggedReports (metricMessages (some [("NCSS_METHOD".toList, "1".toList)]) .ncss)
    ([.method ⟨[(.compound [(.forS none none none (.compound []))])], (some (.compound [(.forS none none none (.compound []))])), 0, 1, 1, false, false⟩] : List Construct))
    [0] "Method of 2 non-commenting source statements exceeds limit of 1".toList) = true := by decide +kernel

-- ObjCForCollectionStatement
example : (taggedAt 0 (taggedReports (metricMessages (some [("NCSS_METHOD".toList, "1".toList)]) .ncss)
    ([.method ⟨[(.compound [(.declS [(.varD ⟨0, "array".toList⟩ none)]), (.forIn (.declS [(.varD ⟨1, "one".toList⟩ none)]) (.cast .implicit .lvalueToRvalue (.declRef ⟨0, "array".toList⟩)) (.compound []))])], (some (.compound [(.declS [(.varD ⟨0, "array".toList⟩ none)]), (.forIn (.declS [(.varD ⟨1, "one".toList⟩ none)]) (.cast .implicit .lvalueToRvalue (.declRef ⟨0, "array".toList⟩)) (.compound []))])), 0, 1, 1, false, false⟩] : List Construct))
    [0] "Method of 3 non-commenting source statements exceeds limit of 1".toList) = true := by decide +kernel

-- WhileStatement
example : (taggedAt 0 (taggedReports (metricMessages (some [("NCSS_METHOD".toList, "1".toList)]) .ncss)
    ([.method ⟨[(.compound [(.whileS (.intLit 1) (.compound []))])], (some (.compound [(.whileS (.intLit 1) (.compound []))])), 0, 1, 1, false, false⟩] : List Construct))
    [0] "Method of 2 non-commenting source statements exceeds limit of 1".toList) = true := by decide +kernel

-- DoStatement
example : (taggedAt 0 (taggedReports (metricMessages (some [("NCSS_METHOD".toList, "1".toList)]) .ncss)
    ([.method ⟨[(.compound [(.doS (.compound []) (.intLit 1))])], (some (.compound [(.doS (.compound []) (.intLit 1))])), 0, 1, 1, false, false⟩] : List Construct))
    [0] "Method of 3 non-commenting source statements exceeds limit of 1".toList) = true := by decide +kernel

-- CXXTryCatch
example : (taggedAt 0 (taggedReports (metricMessages (some [("NCSS_METHOD".toList, "1".toList)]) .ncss)
    ([.method ⟨[(.compound [(.cxxTry (.compound [(.declS [(.varD ⟨0, "a".toList⟩ (some (.intLit 1)))])]) [(.cxxCatch none (.compound [(.declS [(.varD ⟨1, "b".toList⟩ (some (.intLit 2)))])]))])])], (some (.compound [(.cxxTry (.compound [(.declS [(.varD ⟨0, "a".toList⟩ (some (.intLit 1)))])]) [(.cxxCatch none (.compound [(.declS [(.varD ⟨1, "b".toList⟩ (some (.intLit 2)))])]))])])), 0, 1, 1, false, false⟩] : List Construct))
    [0] "Method of 5 non-commenting source statements exceeds limit of 1".toList) = true := by decide +kernel

-- ObjCTryCatch
example : (taggedAt 0 (taggedReports (metricMessages (some [("NCSS_METHOD".toList, "1".toList)]) .ncss)
    ([.method ⟨[(.compound [(.atTry (.compound []) [(.atCatch (.compound []))] none)])], (some (.compound [(.atTry (.compound []) [(.atCatch (.compound []))] none)])), 0, 1, 1, false, false⟩] : List Construct))
    [0] "Method of 3 non-commenting source statements exceeds limit of 1".toList) = true := by decide +kernel

-- ObjCTryCatchFinally
example : (taggedAt 0 (taggedReports (metricMessages (some [("NCSS_METHOD".toList, "1".toList)]) .ncss)
    ([.method ⟨[(.compound [(.atTry (.compound [(.declS [(.varD ⟨0, "c".toList⟩ (some (.intLit 3)))])]) [(.atCatch (.compound [(.declS [(.varD ⟨1, "a".toList⟩ (some (.intLit 1)))])]))] (some (.atFinally (.compound [(.declS [(.varD ⟨2, "b".toList⟩ (some (.intLit 2)))])]))))])], (some (.compound [(.atTry (.compound [(.declS [(.varD ⟨0, "c".toList⟩ (some (.intLit 3)))])]) [(.atCatch (.compound [(.declS [(.varD ⟨1, "a".toList⟩ (some (.intLit 1)))])]))] (some (.atFinally (.compound [(.declS [(.varD ⟨2, "b".toList⟩ (some (.intLit 2)))])]))))])), 0, 1, 1, false, false⟩] : List Construct))
    [0] "Method of 7 non-commenting source statements exceeds limit of 1".toList) = true := by decide +kernel

-- ObjCAutoreleasePool
example : (taggedAt 0 (taggedReports (metricMessages (some [("NCSS_METHOD".toList, "1".toList)]) .ncss)
    ([.method ⟨[(.compound [(.autoreleasePool (.compound [(.declS [(.varD ⟨0, "a".toList⟩ (some (.intLit 1)))])]))])], (some (.compound [(.autoreleasePool (.compound [(.declS [(.varD ⟨0, "a".toList⟩ (some (.intLit 1)))])]))])), 0, 1, 1, false, false⟩] : List Construct))
    [0] "Method of 3 non-commenting source statements exceeds limit of 1".toList) = true := by decide +kernel

-- ObjCSynchronized
example : (taggedAt 0 (taggedReports (metricMessages (some [("NCSS_METHOD".toList, "1".toList)]) .ncss)
    ([.method ⟨[(.compound [(.declS [(.varD ⟨0, "res".toList⟩ none)]), (.atSynchronized (.cast .implicit .lvalueToRvalue (.declRef ⟨0, "res".toList⟩)) (.compound [(.declS [(.varD ⟨1, "a".toList⟩ (some (.intLit 1)))])]))])], (some (.compound [(.declS [(.varD ⟨0, "res".toList⟩ none)]), (.atSynchronized (.cast .implicit .lvalueToRvalue (.declRef ⟨0, "res".toList⟩)) (.compound [(.declS [(.varD ⟨1, "a".toList⟩ (some (.intLit 1)))])]))])), 0, 1, 1, false, false⟩] : List Construct))
    [0] "Method of 4 non-commenting source statements exceeds limit of 1".toList) = true := by decide +kernel

-- OneCaseStatement
example : (taggedAt 0 (taggedReports (metricMessages (some [("NCSS_METHOD".toList, "1".toList)]) .ncss)
    ([.method ⟨[(.compound [(.declS [(.varD ⟨0, "i".toList⟩ (some (.intLit 1)))]), (.switchS false (.cast .implicit .lvalueToRvalue (.declRef ⟨0, "i".toList⟩)) (.compound [(.caseS (.otherE [(.intLit 1)]) .breakS)]))])], (some (.compound [(.declS [(.varD ⟨0, "i".toList⟩ (some (.intLit 1)))]), (.switchS false (.cast .implicit .lvalueToRvalue (.declRef ⟨0, "i".toList⟩)) (.compound [(.caseS (.otherE [(.intLit 1)]) .breakS)]))])), 0, 1, 1, false, false⟩] : List Construct))
    [0] "Method of 5 non-commenting source statements exceeds limit of 1".toList) = true := by decide +kernel

-- TwoCaseStatements
example : (taggedAt 0 (taggedReports (metricMessages (some [("NCSS_METHOD".toList, "1".toList)]) .ncss)
    ([.method ⟨[(.compound [(.declS [(.varD ⟨0, "i".toList⟩ (some (.intLit 1)))]), (.switchS false (.cast .implicit .lvalueToRvalue (.declRef ⟨0, "i".toList⟩)) (.compound [(.caseS (.otherE [(.intLit 1)]) (.caseS (.otherE [(.intLit 2)]) .breakS))]))])], (some (.compound [(.declS [(.varD ⟨0, "i".toList⟩ (some (.intLit 1)))]), (.switchS false (.cast .implicit .lvalueToRvalue (.declRef ⟨0, "i".toList⟩)) (.compound [(.caseS (.otherE [(.intLit 1)]) (.caseS (.otherE [(.intLit 2)]) .breakS))]))])), 0, 1, 1, false, false⟩] : List Construct))
    [0] "Method of 6 non-commenting source statements exceeds limit of 1".toList) = true := by decide +kernel

-- TwoCaseStatementsAndDefault
example : (taggedAt 0 (taggedReports (metricMessages (some [("NCSS_METHOD".toList, "1".toList)]) .ncss)
    ([.method ⟨[(.compound [(.declS [(.varD ⟨0, "i".toList⟩ (some (.intLit 1)))]), (.switchS false (.cast .implicit .lvalueToRvalue (.declRef ⟨0, "i".toList⟩)) (.compound [(.caseS (.otherE [(.intLit 1)]) (.binary .assign (.declRef ⟨0, "i".toList⟩) (.intLit 2))), .breakS, (.caseS (.otherE [(.intLit 2)]) .breakS), (.defaultS .breakS)]))])], (some (.compound [(.declS [(.varD ⟨0, "i".toList⟩ (some (.intLit 1)))]), (.switchS false (.cast .implicit .lvalueToRvalue (.declRef ⟨0, "i".toList⟩)) (.compound [(.caseS (.otherE [(.intLit 1)]) (.binary .assign (.declRef ⟨0, "i".toList⟩) (.intLit 2))), .breakS, (.caseS (.otherE [(.intLit 2)]) .breakS), (.defaultS .breakS)]))])), 0, 1, 1, false, false⟩] : List Construct))
    [0] "Method of 10 non-commenting source statements exceeds limit of 1".toList) = true := by decide +kernel

-- SupressHighNcssMethod
example : ((taggedReports (unsuppressed "high ncss method".toList (metricMessages (some [("NCSS_METHOD".toList, "1".toList)]) .ncss))
    ([([(.decl (.plain [])), (.decl (.plain ["oclint:suppress[high ncss method]".toList]))], .method ⟨[(.compound [(.doS (.compound []) (.intLit 1))])], (some (.compound [(.doS (.compound []) (.intLit 1))])), 0, 1, 1, false, false⟩)] : List (List NodeKind × Construct))).isEmpty) = true := by decide +kernel

/-! ## `oclint-rules/test/size/NestedBlockDepthRuleTest.cpp` -/

-- EmptyFunction
example : ((taggedReports (metricMessages (some [("NESTED_BLOCK_DEPTH".toList, "1".toList)]) .depth)
    ([blockOf (.compound [])] : List Construct)).isEmpty) = true := by decide +kernel

-- TwoLevelBlock
example : (taggedAt 0 (taggedReports (metricMessages (some [("NESTED_BLOCK_DEPTH".toList, "1".toList)]) .depth)
    ([blockOf (.compound [(.compound [])]),
      blockOf (.compound [])] : List Construct))
    [0] "Block depth of 2 exceeds limit of 1".toList) = true := by decide +kernel

-- ChooseTheDeepest
example : (taggedAt 0 (taggedReports (metricMessages (some [("NESTED_BLOCK_DEPTH".toList, "1".toList)]) .depth)
    ([blockOf (.compound [(.compound []), (.compound [(.compound [(.compound [])])]), (.compound [(.compound [])])]),
      blockOf (.compound []),
      blockOf (.compound [(.compound [(.compound [])])]),
      blockOf (.compound [(.compound [])]),
      blockOf (.compound []),
      blockOf (.compound [(.compound [])]),
      blockOf (.compound [])] : List Construct))
    [0] "Block depth of 4 exceeds limit of 1".toList) = true := by decide +kernel

-- IfStatement
example : (taggedAt 0 (taggedReports (metricMessages (some [("NESTED_BLOCK_DEPTH".toList, "1".toList)]) .depth)
    ([blockOf (.compound [(.ifS none (.intLit 1) (.compound []) none)]),
      blockOf (.compound [])] : List Construct))
    [0] "Block depth of 2 exceeds limit of 1".toList) = true := by decide +kernel

-- IfStatementWithElse
example : (taggedAt 0 (taggedReports (metricMessages (some [("NESTED_BLOCK_DEPTH".toList, "1".toList)]) .depth)
    ([blockOf (.compound [(.ifS none (.intLit 1) (.compound []) (some (.compound [(.compound [(.compound [])])])))]),
      blockOf (.compound []),
      blockOf (.compound [(.compound [(.compound [])])]),
      blockOf (.compound [(.compound [])]),
      blockOf (.compound [])] : List Construct))
    [0] "Block depth of 4 exceeds limit of 1".toList) = true := by decide +kernel

-- ForStatement
example : (taggedAt 0 (taggedReports (metricMessages (some [("NESTED_BLOCK_DEPTH".toList, "1".toList)]) .depth)
    ([blockOf (.compound [(.forS none none none (.compound []))]),
      blockOf (.compound [])] : List Construct))
    [0] "Block depth of 2 exceeds limit of 1".toList) = true := by decide +kernel

-- ObjCForCollectionStatement
example : (taggedAt 0 (taggedReports (metricMessages (some [("NESTED_BLOCK_DEPTH".toList, "1".toList)]) .depth)
    ([blockOf (.compound [(.declS [(.varD ⟨0, "array".toList⟩ none)]), (.forIn (.declS [(.varD ⟨1, "one".toList⟩ none)]) (.cast .implicit .lvalueToRvalue (.declRef ⟨0, "array".toList⟩)) (.compound []))]),
      blockOf (.compound [])] : List Construct))
    [0] "Block depth of 2 exceeds limit of 1".toList) = true := by decide +kernel

-- WhileStatement
example : (taggedAt 0 (taggedReports (metricMessages (some [("NESTED_BLOCK_DEPTH".toList, "1".toList)]) .depth)
    ([blockOf (.compound [(.whileS (.intLit 1) (.compound []))]),
      blockOf (.compound [])] : List Construct))
    [0] "Block depth of 2 exceeds limit of 1".toList) = true := by decide +kernel

-- DoStatement
example : (taggedAt 0 (taggedReports (metricMessages (some [("NESTED_BLOCK_DEPTH".toList, "1".toList)]) .depth)
    ([blockOf (.compound [(.doS (.compound []) (.intLit 1))]),
      blockOf (.compound [])] : List Construct))
    [0] "Block depth of 2 exceeds limit of 1".toList) = true := by decide +kernel

-- CXXTryCatch
example : (taggedAt 0 (taggedReports (metricMessages (some [("NESTED_BLOCK_DEPTH".toList, "1".toList)]) .depth)
    ([blockOf (.compound [(.cxxTry (.compound [(.declS [(.varD ⟨0, "a".toList⟩ (some (.intLit 1)))])]) [(.cxxCatch none (.compound [(.declS [(.varD ⟨1, "b".toList⟩ (some (.intLit 2)))]), (.compound [(.compound [])])]))])]),
      blockOf (.compound [(.declS [(.varD ⟨0, "a".toList⟩ (some (.intLit 1)))])]),
      blockOf (.compound [(.declS [(.varD ⟨1, "b".toList⟩ (some (.intLit 2)))]), (.compound [(.compound [])])]),
      blockOf (.compound [(.compound [])]),
      blockOf (.compound [])] : List Construct))
    [0] "Block depth of 4 exceeds limit of 1".toList) = true := by decide +kernel

-- ObjCTryCatch
example : (taggedAt 0 (taggedReports (metricMessages (some [("NESTED_BLOCK_DEPTH".toList, "1".toList)]) .depth)
    ([blockOf (.compound [(.atTry (.compound []) [(.atCatch (.compound [(.compound [(.compound [])])]))] none)]),
      blockOf (.compound []),
      blockOf (.compound [(.compound [(.compound [])])]),
      blockOf (.compound [(.compound [])]),
      blockOf (.compound [])] : List Construct))
    [0] "Block depth of 4 exceeds limit of 1".toList) = true := by decide +kernel

-- ObjCTryCatchFinally
example : (taggedAt 0 (taggedReports (metricMessages (some [("NESTED_BLOCK_DEPTH".toList, "1".toList)]) .depth)
    ([blockOf (.compound [(.atTry (.compound [(.declS [(.varD ⟨0, "c".toList⟩ (some (.intLit 3)))])]) [(.atCatch (.compound [(.declS [(.varD ⟨1, "a".toList⟩ (some (.intLit 1)))])]))] (some (.atFinally (.compound [(.declS [(.varD ⟨2, "b".toList⟩ (some (.intLit 2)))]), (.compound [(.compound [])])]))))]),
      blockOf (.compound [(.declS [(.varD ⟨0, "c".toList⟩ (some (.intLit 3)))])]),
      blockOf (.compound [(.declS [(.varD ⟨1, "a".toList⟩ (some (.intLit 1)))])]),
      blockOf (.compound [(.declS [(.varD ⟨2, "b".toList⟩ (some (.intLit 2)))]), (.compound [(.compound [])])]),
      blockOf (.compound [(.compound [])]),
      blockOf (.compound [])] : List Construct))
    [0] "Block depth of 4 exceeds limit of 1".toList) = true := by decide +kernel

-- ObjCAutoreleasePool
example : (taggedAt 0 (taggedReports (metricMessages (some [("NESTED_BLOCK_DEPTH".toList, "1".toList)]) .depth)
    ([blockOf (.compound [(.autoreleasePool (.compound [(.declS [(.varD ⟨0, "a".toList⟩ (some (.intLit 1)))])]))]),
      blockOf (.compound [(.declS [(.varD ⟨0, "a".toList⟩ (some (.intLit 1)))])])] : List Construct))
    [0] "Block depth of 2 exceeds limit of 1".toList) = true := by decide +kernel

-- ObjCSynchronized
example : (taggedAt 0 (taggedReports (metricMessages (some [("NESTED_BLOCK_DEPTH".toList, "1".toList)]) .depth)
    ([blockOf (.compound [(.declS [(.varD ⟨0, "res".toList⟩ none)]), (.atSynchronized (.cast .implicit .lvalueToRvalue (.declRef ⟨0, "res".toList⟩)) (.compound [(.declS [(.varD ⟨1, "a".toList⟩ (some (.intLit 1)))])]))]),
      blockOf (.compound [(.declS [(.varD ⟨1, "a".toList⟩ (some (.intLit 1)))])])] : List Construct))
    [0] "Block depth of 2 exceeds limit of 1".toList) = true := by decide +kernel

-- OneCaseStatement
example : (taggedAt 0 (taggedReports (metricMessages (some [("NESTED_BLOCK_DEPTH".toList, "1".toList)]) .depth)
    ([blockOf (.compound [(.declS [(.varD ⟨0, "i".toList⟩ (some (.intLit 1)))]), (.switchS false (.cast .implicit .lvalueToRvalue (.declRef ⟨0, "i".toList⟩)) (.compound [(.caseS (.otherE [(.intLit 1)]) .breakS)]))]),
      blockOf (.compound [(.caseS (.otherE [(.intLit 1)]) .breakS)])] : List Construct))
    [0] "Block depth of 2 exceeds limit of 1".toList) = true := by decide +kernel

-- TwoCaseStatements
example : (taggedAt 0 (taggedReports (metricMessages (some [("NESTED_BLOCK_DEPTH".toList, "1".toList)]) .depth)
    ([blockOf (.compound [(.declS [(.varD ⟨0, "i".toList⟩ (some (.intLit 1)))]), (.switchS false (.cast .implicit .lvalueToRvalue (.declRef ⟨0, "i".toList⟩)) (.compound [(.caseS (.otherE [(.intLit 1)]) (.caseS (.otherE [(.intLit 2)]) .breakS))]))]),
      blockOf (.compound [(.caseS (.otherE [(.intLit 1)]) (.caseS (.otherE [(.intLit 2)]) .breakS))])] : List Construct))
    [0] "Block depth of 2 exceeds limit of 1".toList) = true := by decide +kernel

-- TwoCaseStatementsAndDefault
example : (taggedAt 0 (taggedReports (metricMessages (some [("NESTED_BLOCK_DEPTH".toList, "1".toList)]) .depth)
    ([blockOf (.compound [(.declS [(.varD ⟨0, "i".toList⟩ (some (.intLit 1)))]), (.switchS false (.cast .implicit .lvalueToRvalue (.declRef ⟨0, "i".toList⟩)) (.compound [(.caseS (.otherE [(.intLit 1)]) (.binary .assign (.declRef ⟨0, "i".toList⟩) (.intLit 2))), .breakS, (.caseS (.otherE [(.intLit 2)]) .breakS), (.defaultS .breakS)]))]),
      blockOf (.compound [(.caseS (.otherE [(.intLit 1)]) (.binary .assign (.declRef ⟨0, "i".toList⟩) (.intLit 2))), .breakS, (.caseS (.otherE [(.intLit 2)]) .breakS), (.defaultS .breakS)])] : List Construct))
    [0] "Block depth of 2 exceeds limit of 1".toList) = true := by decide +kernel

/-! ## `oclint-rules/test/size/TooManyFieldsRuleTest.cpp` -/

-- CXXClassNoField
example : ((taggedReports (metricMessages (some [("TOO_MANY_FIELDS".toList, "2".toList)]) .fields)
    ([.cls ⟨.cxxRecord, 1, 1, 0, 1⟩] : List Construct)).isEmpty) = true := by decide +kernel

-- CXXClassTwoFields
example : ((taggedReports (metricMessages (some [("TOO_MANY_FIELDS".toList, "2".toList)]) .fields)
    ([.cls ⟨.cxxRecord, 1, 1, 2, 1⟩] : List Construct)).isEmpty) = true := by decide +kernel

-- CXXClassThreeFields
example : (taggedAt 0 (taggedReports (metricMessages (some [("TOO_MANY_FIELDS".toList, "2".toList)]) .fields)
    ([.cls ⟨.cxxRecord, 1, 1, 3, 1⟩] : List Construct))
    [0] "C++ class with 3 fields exceeds limit of 2".toList) = true := by decide +kernel

-- CXXClassFourFields
example : (taggedAt 0 (taggedReports (metricMessages (some [("TOO_MANY_FIELDS".toList, "2".toList)]) .fields)
    ([.cls ⟨.cxxRecord, 1, 1, 4, 1⟩] : List Construct))
    [0] "C++ class with 4 fields exceeds limit of 2".toList) = true := by decide +kernel

-- ObjCInterfaceNoField
example : ((taggedReports (metricMessages (some [("TOO_MANY_FIELDS".toList, "2".toList)]) .fields)
    ([.cls ⟨.objcInterface, 1, 2, 0, 0⟩] : List Construct)).isEmpty) = true := by decide +kernel

-- ObjCInterfaceTwoFields
example : ((taggedReports (metricMessages (some [("TOO_MANY_FIELDS".toList, "2".toList)]) .fields)
    ([.cls ⟨.objcInterface, 1, 5, 2, 0⟩] : List Construct)).isEmpty) = true := by decide +kernel

-- ObjCInterfaceThreeFields
example : (taggedAt 0 (taggedReports (metricMessages (some [("TOO_MANY_FIELDS".toList, "2".toList)]) .fields)
    ([.cls ⟨.objcInterface, 1, 5, 3, 0⟩] : List Construct))
    [0] "Objective-C interface with 3 fields exceeds limit of 2".toList) = true := by decide +kernel

-- ObjCInterfaceFourFields
example : (taggedAt 0 (taggedReports (metricMessages (some [("TOO_MANY_FIELDS".toList, "2".toList)]) .fields)
    ([.cls ⟨.objcInterface, 1, 5, 4, 0⟩] : List Construct))
    [0] "Objective-C interface with 4 fields exceeds limit of 2".toList) = true := by decide +kernel

-- ObjCInterfaceFourFieldsWithOneProperty
example : (taggedAt 0 (taggedReports (metricMessages (some [("TOO_MANY_FIELDS".toList, "2".toList)]) .fields)
    ([.cls ⟨.objcInterface, 1, 6, 4, 2⟩] : List Construct))
    [0] "Objective-C interface with 4 fields exceeds limit of 2".toList) = true := by decide +kernel

/-! ## `oclint-rules/test/size/TooManyMethodsRuleTest.cpp` -/

-- CXXClassNoMethod
example : ((taggedReports (metricMessages (some [("TOO_MANY_METHODS".toList, "3".toList)]) .methods)
    ([.cls ⟨.cxxRecord, 1, 1, 1, 1⟩] : List Construct)).isEmpty) = true := by decide +kernel

-- CXXClassThreeMethods
example : ((taggedReports (metricMessages (some [("TOO_MANY_METHODS".toList, "3".toList)]) .methods)
    ([.cls ⟨.cxxRecord, 1, 1, 1, 3⟩] : List Construct)).isEmpty) = true := by decide +kernel

-- CXXClassFourMethods
example : (taggedAt 0 (taggedReports (metricMessages (some [("TOO_MANY_METHODS".toList, "3".toList)]) .methods)
    ([.cls ⟨.cxxRecord, 1, 1, 1, 4⟩] : List Construct))
    [0] "C++ class with 4 methods exceeds limit of 3".toList) = true := by decide +kernel

-- CXXClassFiveMethods
example : (taggedAt 0 (taggedReports (metricMessages (some [("TOO_MANY_METHODS".toList, "3".toList)]) .methods)
    ([.cls ⟨.cxxRecord, 1, 1, 1, 5⟩] : List Construct))
    [0] "C++ class with 5 methods exceeds limit of 3".toList) = true := by decide +kernel

-- ObjCImplementationNoMethod
example : ((taggedReports (metricMessages (some [("TOO_MANY_METHODS".toList, "3".toList)]) .methods)
    ([.cls ⟨.objcInterface, 1, 2, 0, 0⟩,
      .cls ⟨.objcImpl, 3, 4, 0, 0⟩] : List Construct)).isEmpty) = true := by decide +kernel

-- ObjCImplementationThreeMethods
example : ((taggedReports (metricMessages (some [("TOO_MANY_METHODS".toList, "3".toList)]) .methods)
    ([.cls ⟨.objcInterface, 1, 2, 0, 0⟩,
      .cls ⟨.objcImpl, 3, 7, 0, 3⟩] : List Construct)).isEmpty) = true := by decide +kernel

-- ObjCImplementationFourMethods
example : (taggedAt 0 (taggedReports (metricMessages (some [("TOO_MANY_METHODS".toList, "3".toList)]) .methods)
    ([.cls ⟨.objcInterface, 1, 2, 0, 0⟩,
      .cls ⟨.objcImpl, 3, 8, 0, 4⟩] : List Construct))
    [1] "Objective-C implementation with 4 methods exceeds limit of 3".toList) = true := by decide +kernel

-- ObjCImplementationFiveMethods
example : (taggedAt 0 (taggedReports (metricMessages (some [("TOO_MANY_METHODS".toList, "3".toList)]) .methods)
    ([.cls ⟨.objcInterface, 1, 2, 0, 0⟩,
      .cls ⟨.objcImpl, 3, 9, 0, 5⟩] : List Construct))
    [1] "Objective-C implementation with 5 methods exceeds limit of 3".toList) = true := by decide +kernel

-- ObjCCategoryImplThreeMethods
example : ((taggedReports (metricMessages (some [("TOO_MANY_METHODS".toList, "3".toList)]) .methods)
    ([.cls ⟨.objcInterface, 1, 2, 0, 0⟩,
      .cls ⟨.objcCategory, 3, 4, 0, 0⟩,
      .cls ⟨.objcImpl, 5, 9, 0, 3⟩,
      .cls ⟨.objcImpl, 10, 11, 0, 0⟩] : List Construct)).isEmpty) = true := by decide +kernel

-- ObjCCategoryImplFourMethods
example : (taggedAt 0 (taggedReports (metricMessages (some [("TOO_MANY_METHODS".toList, "3".toList)]) .methods)
    ([.cls ⟨.objcInterface, 1, 2, 0, 0⟩,
      .cls ⟨.objcCategory, 3, 4, 0, 0⟩,
      .cls ⟨.objcImpl, 5, 10, 0, 4⟩,
      .cls ⟨.objcImpl, 11, 12, 0, 0⟩] : List Construct))
    [2] "Objective-C implementation with 4 methods exceeds limit of 3".toList) = true := by decide +kernel

-- ObjCCategoryImplFiveMethods
example : (taggedAt 0 (taggedReports (metricMessages (some [("TOO_MANY_METHODS".toList, "3".toList)]) .methods)
    ([.cls ⟨.objcInterface, 1, 2, 0, 0⟩,
      .cls ⟨.objcCategory, 3, 4, 0, 0⟩,
      .cls ⟨.objcImpl, 5, 11, 0, 5⟩,
      .cls ⟨.objcImpl, 12, 13, 0, 0⟩] : List Construct))
    [2] "Objective-C implementation with 5 methods exceeds limit of 3".toList) = true := by decide +kernel

-- ObjCImplementationFourMethodsMethodsWithOneProperty
example : (taggedAt 0 (taggedReports (metricMessages (some [("TOO_MANY_METHODS".toList, "3".toList)]) .methods)
    ([.cls ⟨.objcInterface, 1, 6, 1, 2⟩,
      .cls ⟨.objcImpl, 7, 14, 0, 7⟩] : List Construct))
    [1] "Objective-C implementation with 7 methods exceeds limit of 3".toList) = true := by decide +kernel

/-! ## `oclint-rules/test/size/TooManyParametersRuleTest.cpp` -/

-- NoParameter
example : ((taggedReports (metricMessages (some [("TOO_MANY_PARAMETERS".toList, "1".toList)]) .parameters)
    ([.method ⟨[(.compound [])], (some (.compound [])), 0, 1, 1, false, false⟩] : List Construct)).isEmpty) = true := by decide +kernel

-- OneParameter
example : ((taggedReports (metricMessages (some [("TOO_MANY_PARAMETERS".toList, "1".toList)]) .parameters)
    ([.method ⟨[(.compound [])], (some (.compound [])), 1, 1, 1, false, false⟩] : List Construct)).isEmpty) = true := by decide +kernel

-- TwoParameters
example : (taggedAt 0 (taggedReports (metricMessages (some [("TOO_MANY_PARAMETERS".toList, "1".toList)]) .parameters)
    ([.method ⟨[(.compound [])], (some (.compound [])), 2, 1, 1, false, false⟩] : List Construct))
    [0] "Method with 2 parameters exceeds limit of 1".toList) = true := by decide +kernel

-- EmptyMethod
example : ((taggedReports (metricMessages (some [("TOO_MANY_PARAMETERS".toList, "1".toList)]) .parameters)
    ([.method ⟨[], none, 3, 1, 1, false, false⟩] : List Construct)).isEmpty) = true := by decide +kernel

-- CXXTwoParameters
example : (taggedAt 0 (taggedReports (metricMessages (some [("TOO_MANY_PARAMETERS".toList, "1".toList)]) .parameters)
    ([.method ⟨[(.compound [])], (some (.compound [])), 2, 3, 3, true, true⟩] : List Construct))
    [0] "Method with 2 parameters exceeds limit of 1".toList) = true := by decide +kernel

-- ObjCTwoParameters
example : (taggedAt 0 (taggedReports (metricMessages (some [("TOO_MANY_PARAMETERS".toList, "1".toList)]) .parameters)
    ([.method ⟨[], none, 2, 4, 4, false, false⟩,
      .method ⟨[(.compound [])], (some (.compound [])), 2, 8, 8, false, false⟩] : List Construct))
    [1] "Method with 2 parameters exceeds limit of 1".toList) = true := by decide +kernel

-- Suppress
example : ((taggedReports (unsuppressed "too many parameters".toList (metricMessages (some [("TOO_MANY_PARAMETERS".toList, "1".toList)]) .parameters))
    ([([(.decl (.plain [])), (.decl (.plain [])), (.decl (.method ["oclint:suppress[too many parameters]".toList] false none .classWithInterface []))], .method ⟨[], none, 2, 4, 4, false, false⟩),
      ([(.decl (.plain [])), (.decl (.plain [])), (.decl (.method ["oclint:suppress[too many parameters]".toList] false none .classWithInterface []))], .method ⟨[(.compound [.nullS])], (some (.compound [.nullS])), 2, 8, 8, false, false⟩)] : List (List NodeKind × Construct))).isEmpty) = true := by decide +kernel

end Oclint
