import Verif.Tests.Support

/-!
# Tests of the repository, properties

Written by `tools/repotests.py`; see `Verif/Tests/Support.lean`.
-/

namespace Oclint

set_option linter.all false

/-! ## `oclint-rules/test/basic/BitwiseOperatorInConditionalRuleTest.cpp` -/

-- PropertyTest
example : (hasProperties "BitwiseOperatorInConditionalRule".toList 2 "bitwise operator in conditional".toList "basic".toList) = true := by decide +kernel

/-! ## `oclint-rules/test/basic/BrokenOddnessCheckRuleTest.cpp` -/

-- PropertyTest
example : (hasProperties "BrokenOddnessCheckRule".toList 2 "broken oddness check".toList "basic".toList) = true := by decide +kernel

/-! ## `oclint-rules/test/basic/CollapsibleIfStatementsRuleTest.cpp` -/

-- PropertyTest
example : (hasProperties "CollapsibleIfStatementsRule".toList 3 "collapsible if statements".toList "basic".toList) = true := by decide +kernel

/-! ## `oclint-rules/test/basic/ConstantConditionalOperatorRuleTest.cpp` -/

-- PropertyTest
example : (hasProperties "ConstantConditionalOperatorRule".toList 2 "constant conditional operator".toList "basic".toList) = true := by decide +kernel

/-! ## `oclint-rules/test/basic/ConstantIfExpressionRuleTest.cpp` -/

-- PropertyTest
example : (hasProperties "ConstantIfExpressionRule".toList 2 "constant if expression".toList "basic".toList) = true := by decide +kernel

/-! ## `oclint-rules/test/basic/DeadCodeRuleTest.cpp` -/

-- PropertyTest
example : (hasProperties "DeadCodeRule".toList 2 "dead code".toList "basic".toList) = true := by decide +kernel

/-! ## `oclint-rules/test/basic/DoubleNegativeRuleTest.cpp` -/

-- PropertyTest
example : (hasProperties "DoubleNegativeRule".toList 2 "double negative".toList "basic".toList) = true := by decide +kernel

/-! ## `oclint-rules/test/basic/ForLoopShouldBeWhileLoopRuleTest.cpp` -/

-- PropertyTest
example : (hasProperties "ForLoopShouldBeWhileLoopRule".toList 3 "for loop should be while loop".toList "basic".toList) = true := by decide +kernel

/-! ## `oclint-rules/test/basic/GotoStatementRuleTest.cpp` -/

-- PropertyTest
example : (hasProperties "GotoStatementRule".toList 3 "goto statement".toList "basic".toList) = true := by decide +kernel

/-! ## `oclint-rules/test/basic/JumbledIncrementerRuleTest.cpp` -/

-- PropertyTest
example : (hasProperties "JumbledIncrementerRule".toList 2 "jumbled incrementer".toList "basic".toList) = true := by decide +kernel

/-! ## `oclint-rules/test/basic/MultipleUnaryOperatorRuleTest.cpp` -/

-- PropertyTest
example : (hasProperties "MultipleUnaryOperatorRule".toList 2 "multiple unary operator".toList "basic".toList) = true := by decide +kernel

/-! ## `oclint-rules/test/basic/ReturnFromFinallyBlockRuleTest.cpp` -/

-- PropertyTest
example : (hasProperties "ReturnFromFinallyBlockRule".toList 2 "return from finally block".toList "basic".toList) = true := by decide +kernel

/-! ## `oclint-rules/test/basic/ThrowExceptionFromFinallyBlockRuleTest.cpp` -/

-- PropertyTest
example : (hasProperties "ThrowExceptionFromFinallyBlockRule".toList 2 "throw exception from finally block".toList "basic".toList) = true := by decide +kernel

/-! ## `oclint-rules/test/cocoa/ObjCVerifyIsEqualHashRuleTest.cpp` -/

-- PropertyTest
example : (hasProperties "ObjCVerifyIsEqualHashRule".toList 1 "missing hash method".toList "cocoa".toList) = true := by decide +kernel

/-! ## `oclint-rules/test/cocoa/ObjCVerifyMustCallSuperRuleTest.cpp` -/

-- PropertyTest
example : (hasProperties "ObjCVerifyMustCallSuperRule".toList 1 "missing call to base method".toList "cocoa".toList) = true := by decide +kernel

/-! ## `oclint-rules/test/cocoa/ObjCVerifyProhibitedCallRuleTest.cpp` -/

-- PropertyTest
example : (hasProperties "ObjCVerifyProhibitedCallRule".toList 1 "calling prohibited method".toList "cocoa".toList) = true := by decide +kernel

/-! ## `oclint-rules/test/cocoa/ObjCVerifyProtectedMethodRuleTest.cpp` -/

-- PropertyTest
example : (hasProperties "ObjCVerifyProtectedMethodRule".toList 1 "calling protected method".toList "cocoa".toList) = true := by decide +kernel

/-! ## `oclint-rules/test/cocoa/ObjCVerifySubclassMustImplementRuleTest.cpp` -/

-- PropertyTest
example : (hasProperties "ObjCVerifySubclassMustImplementRule".toList 1 "missing abstract method implementation".toList "cocoa".toList) = true := by decide +kernel

/-! ## `oclint-rules/test/convention/AvoidBranchingStatementAsLastInLoopRuleTest.cpp` -/

-- PropertyTest
example : (hasProperties "AvoidBranchingStatementAsLastInLoopRule".toList 2 "avoid branching statement as last in loop".toList "convention".toList) = true := by decide +kernel

/-! ## `oclint-rules/test/convention/BaseClassDestructorShouldBeVirtualOrProtectedRuleTest.cpp` -/

-- PropertyTest
example : (hasProperties "BaseClassDestructorShouldBeVirtualOrProtectedRule".toList 2 "base class destructor should be virtual or protected".toList "convention".toList) = true := by decide +kernel

/-! ## `oclint-rules/test/convention/CoveredSwitchStatementsDontNeedDefaultRuleTest.cpp` -/

-- PropertyTest
example : (hasProperties "CoveredSwitchStatementsDontNeedDefaultRule".toList 3 "unnecessary default statement in covered switch statement".toList "convention".toList) = true := by decide +kernel

/-! ## `oclint-rules/test/convention/DefaultLabelNotLastInSwitchStatementRuleTest.cpp` -/

-- PropertyTest
example : (hasProperties "DefaultLabelNotLastInSwitchStatementRule".toList 3 "ill-placed default label in switch statement".toList "convention".toList) = true := by decide +kernel

/-! ## `oclint-rules/test/convention/DestructorOfVirtualClassRuleTest.cpp` -/

-- PropertyTest
example : (hasProperties "DestructorOfVirtualClassRule".toList 2 "destructor of virtual class".toList "convention".toList) = true := by decide +kernel

/-! ## `oclint-rules/test/convention/InvertedLogicRuleTest.cpp` -/

-- PropertyTest
example : (hasProperties "InvertedLogicRule".toList 3 "inverted logic".toList "convention".toList) = true := by decide +kernel

/-! ## `oclint-rules/test/convention/MissingBreakInSwitchStatementRuleTest.cpp` -/

-- PropertyTest
example : (hasProperties "MissingBreakInSwitchStatementRule".toList 2 "missing break in switch statement".toList "convention".toList) = true := by decide +kernel

/-! ## `oclint-rules/test/convention/NonCaseLabelInSwitchStatementRuleTest.cpp` -/

-- PropertyTest
example : (hasProperties "NonCaseLabelInSwitchStatementRule".toList 3 "non case label in switch statement".toList "convention".toList) = true := by decide +kernel

/-! ## `oclint-rules/test/convention/ObjCAssignIvarOutsideAccessorsRuleTest.cpp` -/

-- PropertyTest
example : (hasProperties "ObjCAssignIvarOutsideAccessorsRule".toList 2 "ivar assignment outside accessors or init".toList "convention".toList) = true := by decide +kernel

/-! ## `oclint-rules/test/convention/ParameterReassignmentRuleTest.cpp` -/

-- PropertyTest
example : (hasProperties "ParameterReassignmentRule".toList 3 "parameter reassignment".toList "convention".toList) = true := by decide +kernel

/-! ## `oclint-rules/test/convention/PreferEarlyExitRuleTest.cpp` -/

-- PropertyTest
example : (hasProperties "PreferEarlyExitRule".toList 3 "prefer early exits and continue".toList "convention".toList) = true := by decide +kernel

/-! ## `oclint-rules/test/convention/SwitchStatementsShouldHaveDefaultRuleTest.cpp` -/

-- PropertyTest
example : (hasProperties "SwitchStatementsShouldHaveDefaultRule".toList 3 "missing default in switch statements".toList "convention".toList) = true := by decide +kernel

/-! ## `oclint-rules/test/convention/TooFewBranchesInSwitchStatementRuleTest.cpp` -/

-- PropertyTest
example : (hasProperties "TooFewBranchesInSwitchStatementRule".toList 3 "too few branches in switch statement".toList "convention".toList) = true := by decide +kernel

/-! ## `oclint-rules/test/cuda/CudaBranchDivergenceRuleTest.cpp` -/

-- PropertyTest
example : (hasProperties "CudaBranchDivergenceRule".toList 10 "branch divergence".toList "cuda".toList) = true := by decide +kernel

/-! ## `oclint-rules/test/design/AvoidDefaultArgumentsOnVirtualMethodsRuleTest.cpp` -/

-- PropertyTest
example : (hasProperties "AvoidDefaultArgumentsOnVirtualMethodsRule".toList 3 "avoid default arguments on virtual methods".toList "design".toList) = true := by decide +kernel

/-! ## `oclint-rules/test/design/AvoidPrivateStaticMembersRuleTest.cpp` -/

-- PropertyTest
example : (hasProperties "AvoidPrivateStaticMembersRule".toList 3 "avoid private static members".toList "design".toList) = true := by decide +kernel

/-! ## `oclint-rules/test/design/FeatureEnvyRuleTest.cpp` -/

-- PropertyTest
example : (hasProperties "FeatureEnvyRule".toList 3 "feature envy".toList "design".toList) = true := by decide +kernel

/-! ## `oclint-rules/test/empty/EmptyCatchStatementRuleTest.cpp` -/

-- PropertyTest
example : (hasProperties "EmptyCatchStatementRule".toList 2 "empty catch statement".toList "empty".toList) = true := by decide +kernel

/-! ## `oclint-rules/test/empty/EmptyDoWhileStatementRuleTest.cpp` -/

-- PropertyTest
example : (hasProperties "EmptyDoWhileStatementRule".toList 2 "empty do/while statement".toList "empty".toList) = true := by decide +kernel

/-! ## `oclint-rules/test/empty/EmptyElseBlockRuleTest.cpp` -/

-- PropertyTest
example : (hasProperties "EmptyElseBlockRule".toList 2 "empty else block".toList "empty".toList) = true := by decide +kernel

/-! ## `oclint-rules/test/empty/EmptyFinallyStatementRuleTest.cpp` -/

-- PropertyTest
example : (hasProperties "EmptyFinallyStatementRule".toList 2 "empty finally statement".toList "empty".toList) = true := by decide +kernel

/-! ## `oclint-rules/test/empty/EmptyForStatementRuleTest.cpp` -/

-- PropertyTest
example : (hasProperties "EmptyForStatementRule".toList 2 "empty for statement".toList "empty".toList) = true := by decide +kernel

/-! ## `oclint-rules/test/empty/EmptyIfStatementRuleTest.cpp` -/

-- PropertyTest
example : (hasProperties "EmptyIfStatementRule".toList 2 "empty if statement".toList "empty".toList) = true := by decide +kernel

/-! ## `oclint-rules/test/empty/EmptySwitchStatementRuleTest.cpp` -/

-- PropertyTest
example : (hasProperties "EmptySwitchStatementRule".toList 2 "empty switch statement".toList "empty".toList) = true := by decide +kernel

/-! ## `oclint-rules/test/empty/EmptyTryStatementRuleTest.cpp` -/

-- PropertyTest
example : (hasProperties "EmptyTryStatementRule".toList 2 "empty try statement".toList "empty".toList) = true := by decide +kernel

/-! ## `oclint-rules/test/empty/EmptyWhileStatementRuleTest.cpp` -/

-- PropertyTest
example : (hasProperties "EmptyWhileStatementRule".toList 2 "empty while statement".toList "empty".toList) = true := by decide +kernel

/-! ## `oclint-rules/test/migration/ObjCBoxedExpressionsRuleTest.cpp` -/

-- PropertyTest
example : (hasProperties "ObjCBoxedExpressionsRule".toList 3 "use boxed expression".toList "migration".toList) = true := by decide +kernel

/-! ## `oclint-rules/test/migration/ObjCContainerLiteralsRuleTest.cpp` -/

-- PropertyTest
example : (hasProperties "ObjCContainerLiteralsRule".toList 3 "use container literal".toList "migration".toList) = true := by decide +kernel

/-! ## `oclint-rules/test/migration/ObjCNSNumberLiteralsRuleTest.cpp` -/

-- PropertyTest
example : (hasProperties "ObjCNSNumberLiteralsRule".toList 3 "use number literal".toList "migration".toList) = true := by decide +kernel

/-! ## `oclint-rules/test/migration/ObjCObjectSubscriptingRuleTest.cpp` -/

-- PropertyTest
example : (hasProperties "ObjCObjectSubscriptingRule".toList 3 "use object subscripting".toList "migration".toList) = true := by decide +kernel

/-! ## `oclint-rules/test/naming/LongVariableNameRuleTest.cpp` -/

-- PropertyTest
example : (hasProperties "LongVariableNameRule".toList 3 "long variable name".toList "naming".toList) = true := by decide +kernel

/-! ## `oclint-rules/test/naming/ShortVariableNameRuleTest.cpp` -/

-- PropertyTest
example : (hasProperties "ShortVariableNameRule".toList 3 "short variable name".toList "naming".toList) = true := by decide +kernel

/-! ## `oclint-rules/test/redundant/RedundantConditionalOperatorRuleTest.cpp` -/

-- PropertyTest
example : (hasProperties "RedundantConditionalOperatorRule".toList 3 "redundant conditional operator".toList "redundant".toList) = true := by decide +kernel

/-! ## `oclint-rules/test/redundant/RedundantIfStatementRuleTest.cpp` -/

-- PropertyTest
example : (hasProperties "RedundantIfStatementRule".toList 3 "redundant if statement".toList "redundant".toList) = true := by decide +kernel

/-! ## `oclint-rules/test/redundant/RedundantLocalVariableRuleTest.cpp` -/

-- PropertyTest
example : (hasProperties "RedundantLocalVariableRule".toList 3 "redundant local variable".toList "redundant".toList) = true := by decide +kernel

/-! ## `oclint-rules/test/redundant/RedundantNilCheckRuleTest.cpp` -/

-- PropertyTest
example : (hasProperties "RedundantNilCheckRule".toList 3 "redundant nil check".toList "redundant".toList) = true := by decide +kernel

/-! ## `oclint-rules/test/redundant/UnnecessaryElseStatementRuleTest.cpp` -/

-- PropertyTest
example : (hasProperties "UnnecessaryElseStatementRule".toList 3 "unnecessary else statement".toList "redundant".toList) = true := by decide +kernel

/-! ## `oclint-rules/test/redundant/UnnecessaryNullCheckForCXXDeallocRuleTest.cpp` -/

-- PropertyTest
example : (hasProperties "UnnecessaryNullCheckForCXXDeallocRule".toList 3 "unnecessary null check for dealloc".toList "redundant".toList) = true := by decide +kernel

/-! ## `oclint-rules/test/redundant/UselessParenthesesRuleTest.cpp` -/

-- PropertyTest
example : (hasProperties "UselessParenthesesRule".toList 3 "useless parentheses".toList "redundant".toList) = true := by decide +kernel

/-! ## `oclint-rules/test/size/CyclomaticComplexityRuleTest.cpp` -/

-- PropertyTest
example : (hasProperties "CyclomaticComplexityRule".toList 2 "high cyclomatic complexity".toList "size".toList) = true := by decide +kernel

/-! ## `oclint-rules/test/size/LongClassRuleTest.cpp` -/

-- PropertyTest
example : (hasProperties "LongClassRule".toList 3 "long class".toList "size".toList) = true := by decide +kernel

/-! ## `oclint-rules/test/size/LongLineRuleTest.cpp` -/

-- PropertyTest
example : (hasProperties "LongLineRule".toList 3 "long line".toList "size".toList) = true := by decide +kernel

/-! ## `oclint-rules/test/size/LongMethodRuleTest.cpp` -/

-- PropertyTest
example : (hasProperties "LongMethodRule".toList 3 "long method".toList "size".toList) = true := by decide +kernel

/-! ## `oclint-rules/test/size/NPathComplexityRuleTest.cpp` -/

-- PropertyTest
example : (hasProperties "NPathComplexityRule".toList 2 "high npath complexity".toList "size".toList) = true := by decide +kernel

/-! ## `oclint-rules/test/size/NcssMethodCountRuleTest.cpp` -/

-- PropertyTest
example : (hasProperties "NcssMethodCountRule".toList 2 "high ncss method".toList "size".toList) = true := by decide +kernel

/-! ## `oclint-rules/test/size/NestedBlockDepthRuleTest.cpp` -/

-- PropertyTest
example : (hasProperties "NestedBlockDepthRule".toList 3 "deep nested block".toList "size".toList) = true := by decide +kernel

/-! ## `oclint-rules/test/size/TooManyFieldsRuleTest.cpp` -/

-- PropertyTest
example : (hasProperties "TooManyFieldsRule".toList 3 "too many fields".toList "size".toList) = true := by decide +kernel

/-! ## `oclint-rules/test/size/TooManyMethodsRuleTest.cpp` -/

-- PropertyTest
example : (hasProperties "TooManyMethodsRule".toList 3 "too many methods".toList "size".toList) = true := by decide +kernel

/-! ## `oclint-rules/test/size/TooManyParametersRuleTest.cpp` -/

-- PropertyTest
example : (hasProperties "TooManyParametersRule".toList 3 "too many parameters".toList "size".toList) = true := by decide +kernel

/-! ## `oclint-rules/test/unused/UnusedLocalVariableRuleTest.cpp` -/

-- PropertyTest
example : (hasProperties "UnusedLocalVariableRule".toList 3 "unused local variable".toList "unused".toList) = true := by decide +kernel

/-! ## `oclint-rules/test/unused/UnusedMethodParameterRuleTest.cpp` -/

-- PropertyTest
example : (hasProperties "UnusedMethodParameterRule".toList 3 "unused method parameter".toList "unused".toList) = true := by decide +kernel

end Oclint
