import Verif.Model.Registry
import Verif.Model.RuleBase
import Verif.Model.Reporters

/-!
# The rules that are shipped

What the classes under `oclint-rules/rules` answer when they are asked for their name, priority and so
on, and what `oclint-core/lib/RuleBase.cpp` and `oclint-rules/lib/AbstractASTRuleBase.cpp` answer where a
class does not.  The order is that of `oclint-rules/rules/CMakeLists.txt:48-58` for the directories, and
alphabetical within; every rule file is listed in the `CMakeLists.txt` of its directory, but the line of
`FeatureEnvyRule.cpp` is commented out (`design/CMakeLists.txt:4`, see C118).  A run loads those that are
built in the order the file system gives (`RulesLoader`), so nothing below depends on the order.

Not modelled: the documentation texts other than those about thresholds.
-/

namespace Oclint

/-- The class a rule derives from, directly or through a class of `rules/abstract` or of its own file. -/
inductive RuleKind where
  /-- `AbstractASTVisitorRule`, also through `AbstractASTMatcherRule` -/
  | visitor
  /-- `AbstractSourceCodeReaderRule` -/
  | lines
  deriving Repr, DecidableEq

/-- What a rule class says about itself. `none` is a function it does not override. -/
structure ShippedRule where
  /-- where it is, below `oclint-rules/rules` -/
  directory : Str
  source : Str
  kind : RuleKind
  name : Str
  priority : Int
  category : Str
  identifierOverride : Option Str := none
  attributeOverride : Option Str := none
  fileNameOverride : Option Str := none
  languagesOverride : Option (BitVec 32) := none
  cudaOverride : Option (BitVec 32) := none
  /-- the texts about thresholds, in the order of the map -/
  thresholds : List (Str × Str) := []
  deriving Repr, DecidableEq

/-- `oclint-core/lib/RuleBase.cpp:16-35`, `identifier`, unless overridden. -/
def ShippedRule.identifier (r : ShippedRule) : Str :=
  match r.identifierOverride with
  | some s => s
  | none => Oclint.identifier r.name

/-- `oclint-core/lib/RuleBase.cpp:11-14`, `attributeName`, unless overridden. -/
def ShippedRule.attributeName (r : ShippedRule) : Str :=
  match r.attributeOverride with
  | some s => s
  | none => r.name

/-- `oclint-core/lib/RuleBase.cpp:38-41`, `fileName`, unless overridden. -/
def ShippedRule.fileName (r : ShippedRule) : Str :=
  match r.fileNameOverride with
  | some s => s
  | none => r.identifier ++ "Rule.cpp".toList

/-- `oclint-rules/lib/AbstractASTRuleBase.cpp:49-52`, `supportedLanguages`, unless overridden. -/
def ShippedRule.supportedLanguages (r : ShippedRule) : BitVec 32 :=
  match r.languagesOverride with
  | some m => m
  | none => defaultSupportedLanguages

/-- `oclint-rules/lib/AbstractASTRuleBase.cpp:87-90`, `supportedCUDAFunctionAttrs`, unless overridden. -/
def ShippedRule.cudaAttrs (r : ShippedRule) : BitVec 32 :=
  match r.cudaOverride with
  | some m => m
  | none => defaultCUDAFunctionAttrs

/-- What the reporters ask. -/
def ShippedRule.info (r : ShippedRule) : RuleInfo := ⟨r.name, r.category, r.priority⟩

/-- `oclint-rules/rules/basic/*.cpp`; the lines are beside the rules. -/
def basicRules : List ShippedRule :=
  [ -- BitwiseOperatorInConditionalRule.cpp:12-25, BitwiseOperatorInConditionalRule
    { directory := chars! "basic", source := chars! "BitwiseOperatorInConditionalRule.cpp",
      kind := .visitor, name := chars! "bitwise operator in conditional", priority := 2,
      category := chars! "basic" },
    -- BrokenNullCheckRule.cpp:61-79, BrokenNullCheckRule
    { directory := chars! "basic", source := chars! "BrokenNullCheckRule.cpp", kind := .visitor,
      name := chars! "broken null check", priority := 1, category := chars! "basic",
      languagesOverride := some (LANG_C ||| LANG_CXX) },
    -- BrokenNullCheckRule.cpp:123-158, BrokenNilCheckRule
    { directory := chars! "basic", source := chars! "BrokenNullCheckRule.cpp", kind := .visitor,
      name := chars! "broken nil check", priority := 2, category := chars! "basic",
      fileNameOverride := some (chars! "BrokenNullCheckRule.cpp"),
      languagesOverride := some LANG_OBJC },
    -- BrokenOddnessCheckRule.cpp:31-44, BrokenOddnessCheckRule
    { directory := chars! "basic", source := chars! "BrokenOddnessCheckRule.cpp", kind := .visitor,
      name := chars! "broken oddness check", priority := 2, category := chars! "basic" },
    -- CollapsibleIfStatementsRule.cpp:40-53, CollapsibleIfStatementsRule
    { directory := chars! "basic", source := chars! "CollapsibleIfStatementsRule.cpp",
      kind := .visitor, name := chars! "collapsible if statements", priority := 3,
      category := chars! "basic" },
    -- ConstantConditionalOperatorRule.cpp:12-25, ConstantConditionalOperatorRule
    { directory := chars! "basic", source := chars! "ConstantConditionalOperatorRule.cpp",
      kind := .visitor, name := chars! "constant conditional operator", priority := 2,
      category := chars! "basic" },
    -- ConstantIfExpressionRule.cpp:11-24, ConstantIfExpressionRule
    { directory := chars! "basic", source := chars! "ConstantIfExpressionRule.cpp",
      kind := .visitor, name := chars! "constant if expression", priority := 2,
      category := chars! "basic" },
    -- DeadCodeRule.cpp:92-105, DeadCodeRule
    { directory := chars! "basic", source := chars! "DeadCodeRule.cpp", kind := .visitor,
      name := chars! "dead code", priority := 2, category := chars! "basic" },
    -- DoubleNegativeRule.cpp:22-35, DoubleNegativeRule
    { directory := chars! "basic", source := chars! "DoubleNegativeRule.cpp", kind := .visitor,
      name := chars! "double negative", priority := 2, category := chars! "basic" },
    -- ForLoopShouldBeWhileLoopRule.cpp:11-24, ForLoopShouldBeWhileLoopRule
    { directory := chars! "basic", source := chars! "ForLoopShouldBeWhileLoopRule.cpp",
      kind := .visitor, name := chars! "for loop should be while loop", priority := 3,
      category := chars! "basic" },
    -- GotoStatementRule.cpp:18-31, GotoStatementRule
    { directory := chars! "basic", source := chars! "GotoStatementRule.cpp", kind := .visitor,
      name := chars! "goto statement", priority := 3, category := chars! "basic" },
    -- JumbledIncrementerRule.cpp:44-57, JumbledIncrementerRule
    { directory := chars! "basic", source := chars! "JumbledIncrementerRule.cpp", kind := .visitor,
      name := chars! "jumbled incrementer", priority := 2, category := chars! "basic" },
    -- MisplacedNullCheckRule.cpp:61-97, MisplacedNullCheckRule
    { directory := chars! "basic", source := chars! "MisplacedNullCheckRule.cpp", kind := .visitor,
      name := chars! "misplaced null check", priority := 1, category := chars! "basic",
      fileNameOverride := some (chars! "MisplacedNullCheckRule.cpp"),
      languagesOverride := some (LANG_C ||| LANG_CXX) },
    -- MisplacedNullCheckRule.cpp:130-166, MisplacedNilCheckRule
    { directory := chars! "basic", source := chars! "MisplacedNullCheckRule.cpp", kind := .visitor,
      name := chars! "misplaced nil check", priority := 3, category := chars! "basic",
      fileNameOverride := some (chars! "MisplacedNullCheckRule.cpp"),
      languagesOverride := some LANG_OBJC },
    -- MultipleUnaryOperatorRule.cpp:20-33, MultipleUnaryOperatorRule
    { directory := chars! "basic", source := chars! "MultipleUnaryOperatorRule.cpp",
      kind := .visitor, name := chars! "multiple unary operator", priority := 2,
      category := chars! "basic" },
    -- ReturnFromFinallyBlockRule.cpp:30-43, ReturnFromFinallyBlockRule
    { directory := chars! "basic", source := chars! "ReturnFromFinallyBlockRule.cpp",
      kind := .visitor, name := chars! "return from finally block", priority := 2,
      category := chars! "basic" },
    -- ThrowExceptionFromFinallyBlockRule.cpp:66-84, ThrowExceptionFromFinallyBlockRule
    { directory := chars! "basic", source := chars! "ThrowExceptionFromFinallyBlockRule.cpp",
      kind := .visitor, name := chars! "throw exception from finally block", priority := 2,
      category := chars! "basic", languagesOverride := some LANG_OBJC } ]

/-- `oclint-rules/rules/cocoa/*.cpp`; the lines are beside the rules. -/
def cocoaRules : List ShippedRule :=
  [ -- ObjCVerifyIsEqualHashRule.cpp:16-50, ObjCVerifyIsEqualHashRule
    { directory := chars! "cocoa", source := chars! "ObjCVerifyIsEqualHashRule.cpp",
      kind := .visitor, name := chars! "missing hash method", priority := 1,
      category := chars! "cocoa",
      fileNameOverride := some (chars! "ObjCVerifyIsEqualHashRule.cpp"),
      languagesOverride := some LANG_OBJC },
    -- ObjCVerifyMustCallSuperRule.cpp:60-102, ObjCVerifyMustCallSuperRule
    { directory := chars! "cocoa", source := chars! "ObjCVerifyMustCallSuperRule.cpp",
      kind := .visitor, name := chars! "missing call to base method", priority := 1,
      category := chars! "cocoa", attributeOverride := some (chars! "base method"),
      fileNameOverride := some (chars! "ObjCVerifyMustCallSuperRule.cpp"),
      languagesOverride := some LANG_OBJC },
    -- ObjCVerifyProhibitedCallRule.cpp:41-77, ObjCVerifyProhibitedCallRule
    { directory := chars! "cocoa", source := chars! "ObjCVerifyProhibitedCallRule.cpp",
      kind := .visitor, name := chars! "calling prohibited method", priority := 1,
      category := chars! "cocoa", attributeOverride := some (chars! "prohibited method"),
      fileNameOverride := some (chars! "ObjCVerifyProhibitedCallRule.cpp") },
    -- ObjCVerifyProtectedMethodRule.cpp:72-114, ObjCVerifyProtectedMethodRule
    { directory := chars! "cocoa", source := chars! "ObjCVerifyProtectedMethodRule.cpp",
      kind := .visitor, name := chars! "calling protected method", priority := 1,
      category := chars! "cocoa", attributeOverride := some (chars! "protected method"),
      fileNameOverride := some (chars! "ObjCVerifyProtectedMethodRule.cpp"),
      languagesOverride := some LANG_OBJC },
    -- ObjCVerifySubclassMustImplementRule.cpp:17-58, ObjCVerifySubclassMustImplementRule
    { directory := chars! "cocoa", source := chars! "ObjCVerifySubclassMustImplementRule.cpp",
      kind := .visitor, name := chars! "missing abstract method implementation", priority := 1,
      category := chars! "cocoa", attributeOverride := some (chars! "abstract method"),
      fileNameOverride := some (chars! "ObjCVerifySubclassMustImplementRule.cpp"),
      languagesOverride := some LANG_OBJC } ]

/-- `oclint-rules/rules/convention/*.cpp`; the lines are beside the rules. -/
def conventionRules : List ShippedRule :=
  [ -- AvoidBranchingStatementAsLastInLoopRule.cpp:37-50, AvoidBranchingStatementAsLastInLoopRule
    { directory := chars! "convention",
      source := chars! "AvoidBranchingStatementAsLastInLoopRule.cpp", kind := .visitor,
      name := chars! "avoid branching statement as last in loop", priority := 2,
      category := chars! "convention" },
    -- BaseClassDestructorShouldBeVirtualOrProtectedRule.cpp:39-78, BaseClassDestructorShouldBeVirtualOrProtectedRule
    { directory := chars! "convention",
      source := chars! "BaseClassDestructorShouldBeVirtualOrProtectedRule.cpp", kind := .visitor,
      name := chars! "base class destructor should be virtual or protected", priority := 2,
      category := chars! "convention",
      identifierOverride := some (chars! "ProblematicBaseClassDestructor"),
      fileNameOverride := some (chars! "BaseClassDestructorShouldBeVirtualOrProtectedRule.cpp"),
      languagesOverride := some LANG_CXX },
    -- CoveredSwitchStatementsDontNeedDefaultRule.cpp:12-49, CoveredSwitchStatementsDontNeedDefaultRule
    { directory := chars! "convention",
      source := chars! "CoveredSwitchStatementsDontNeedDefaultRule.cpp", kind := .visitor,
      name := chars! "unnecessary default statement in covered switch statement", priority := 3,
      category := chars! "convention",
      identifierOverride := some (chars! "UnnecessaryDefaultStatement"),
      fileNameOverride := some (chars! "CoveredSwitchStatementsDontNeedDefaultRule.cpp") },
    -- DefaultLabelNotLastInSwitchStatementRule.cpp:12-47, DefaultLabelNotLastInSwitchStatementRule
    { directory := chars! "convention",
      source := chars! "DefaultLabelNotLastInSwitchStatementRule.cpp", kind := .visitor,
      name := chars! "ill-placed default label in switch statement", priority := 3,
      category := chars! "convention", identifierOverride := some (chars! "MisplacedDefaultLabel"),
      fileNameOverride := some (chars! "DefaultLabelNotLastInSwitchStatementRule.cpp") },
    -- DestructorOfVirtualClassRule.cpp:23-41, DestructorOfVirtualClassRule
    { directory := chars! "convention", source := chars! "DestructorOfVirtualClassRule.cpp",
      kind := .visitor, name := chars! "destructor of virtual class", priority := 2,
      category := chars! "convention", languagesOverride := some LANG_CXX },
    -- InvertedLogicRule.cpp:20-33, InvertedLogicRule
    { directory := chars! "convention", source := chars! "InvertedLogicRule.cpp", kind := .visitor,
      name := chars! "inverted logic", priority := 3, category := chars! "convention" },
    -- MissingBreakInSwitchStatementRule.cpp:50-63, MissingBreakInSwitchStatementRule
    { directory := chars! "convention", source := chars! "MissingBreakInSwitchStatementRule.cpp",
      kind := .visitor, name := chars! "missing break in switch statement", priority := 2,
      category := chars! "convention" },
    -- NonCaseLabelInSwitchStatementRule.cpp:31-44, NonCaseLabelInSwitchStatementRule
    { directory := chars! "convention", source := chars! "NonCaseLabelInSwitchStatementRule.cpp",
      kind := .visitor, name := chars! "non case label in switch statement", priority := 3,
      category := chars! "convention" },
    -- ObjCAssignIvarOutsideAccessorsRule.cpp:70-105, ObjCAssignIvarOutsideAccessorsRule
    { directory := chars! "convention", source := chars! "ObjCAssignIvarOutsideAccessorsRule.cpp",
      kind := .visitor, name := chars! "ivar assignment outside accessors or init", priority := 2,
      category := chars! "convention",
      identifierOverride := some (chars! "AssignIvarOutsideAccessors"),
      fileNameOverride := some (chars! "ObjCAssignIvarOutsideAccessorsRule.cpp") },
    -- ParameterReassignmentRule.cpp:59-72, ParameterReassignmentRule
    { directory := chars! "convention", source := chars! "ParameterReassignmentRule.cpp",
      kind := .visitor, name := chars! "parameter reassignment", priority := 3,
      category := chars! "convention" },
    -- PreferEarlyExitRule.cpp:68-104, PreferEarlyExitRule
    { directory := chars! "convention", source := chars! "PreferEarlyExitRule.cpp",
      kind := .visitor, name := chars! "prefer early exits and continue", priority := 3,
      category := chars! "convention", identifierOverride := some (chars! "PreferEarlyExit"),
      fileNameOverride := some (chars! "PreferEarlyExitRule.cpp") },
    -- SwitchStatementsShouldHaveDefaultRule.cpp:12-46, SwitchStatementsShouldHaveDefaultRule
    { directory := chars! "convention",
      source := chars! "SwitchStatementsShouldHaveDefaultRule.cpp", kind := .visitor,
      name := chars! "missing default in switch statements", priority := 3,
      category := chars! "convention",
      identifierOverride := some (chars! "MissingDefaultStatement"),
      fileNameOverride := some (chars! "SwitchStatementsShouldHaveDefaultRule.cpp") },
    -- TooFewBranchesInSwitchStatementRule.cpp:33-46, TooFewBranchesInSwitchStatementRule
    { directory := chars! "convention", source := chars! "TooFewBranchesInSwitchStatementRule.cpp",
      kind := .visitor, name := chars! "too few branches in switch statement", priority := 3,
      category := chars! "convention",
      thresholds := [(chars! "MINIMUM_CASES_IN_SWITCH", chars! "The reporting threshold for count of case statements in a switch statement, default value is 3.")] } ]

/-- `oclint-rules/rules/cuda/*.cpp`; the lines are beside the rules. -/
def cudaRules : List ShippedRule :=
  [ -- CudaBranchDivergenceRule.cpp:16-50, CudaBranchDivergenceRule
    { directory := chars! "cuda", source := chars! "CudaBranchDivergenceRule.cpp",
      kind := .visitor, name := chars! "branch divergence", priority := 10,
      category := chars! "cuda", fileNameOverride := some (chars! "CudaBranchDivergenceRule.cpp"),
      cudaOverride := some CUDA_GLOBAL } ]

/-- `oclint-rules/rules/design/*.cpp`; the lines are beside the rules. -/
def designRules : List ShippedRule :=
  [ -- AvoidDefaultArgumentsOnVirtualMethodsRule.cpp:21-79, AvoidDefaultArgumentsOnVirtualMethodsRule
    { directory := chars! "design",
      source := chars! "AvoidDefaultArgumentsOnVirtualMethodsRule.cpp", kind := .visitor,
      name := chars! "avoid default arguments on virtual methods", priority := 3,
      category := chars! "design", languagesOverride := some LANG_CXX },
    -- AvoidPrivateStaticMembersRule.cpp:26-39, AvoidPrivateStaticMembersRule
    { directory := chars! "design", source := chars! "AvoidPrivateStaticMembersRule.cpp",
      kind := .visitor, name := chars! "avoid private static members", priority := 3,
      category := chars! "design" },
    -- FeatureEnvyRule.cpp:186-199, FeatureEnvyRule
    { directory := chars! "design", source := chars! "FeatureEnvyRule.cpp", kind := .visitor,
      name := chars! "feature envy", priority := 3, category := chars! "design" } ]

/-- `oclint-rules/rules/empty/*.cpp`; the lines are beside the rules. -/
def emptyRules : List ShippedRule :=
  [ -- EmptyCatchStatementRule.cpp:13-26, EmptyCatchStatementRule
    { directory := chars! "empty", source := chars! "EmptyCatchStatementRule.cpp",
      kind := .visitor, name := chars! "empty catch statement", priority := 2,
      category := chars! "empty" },
    -- EmptyDoWhileStatementRule.cpp:13-26, EmptyDoWhileStatementRule
    { directory := chars! "empty", source := chars! "EmptyDoWhileStatementRule.cpp",
      kind := .visitor, name := chars! "empty do/while statement", priority := 2,
      category := chars! "empty" },
    -- EmptyElseBlockRule.cpp:13-42, EmptyElseBlockRule
    { directory := chars! "empty", source := chars! "EmptyElseBlockRule.cpp", kind := .visitor,
      name := chars! "empty else block", priority := 2, category := chars! "empty",
      fileNameOverride := some (chars! "EmptyElseBlockRule.cpp") },
    -- EmptyFinallyStatementRule.cpp:13-26, EmptyFinallyStatementRule
    { directory := chars! "empty", source := chars! "EmptyFinallyStatementRule.cpp",
      kind := .visitor, name := chars! "empty finally statement", priority := 2,
      category := chars! "empty" },
    -- EmptyForStatementRule.cpp:13-26, EmptyForStatementRule
    { directory := chars! "empty", source := chars! "EmptyForStatementRule.cpp", kind := .visitor,
      name := chars! "empty for statement", priority := 2, category := chars! "empty" },
    -- EmptyIfStatementRule.cpp:13-26, EmptyIfStatementRule
    { directory := chars! "empty", source := chars! "EmptyIfStatementRule.cpp", kind := .visitor,
      name := chars! "empty if statement", priority := 2, category := chars! "empty" },
    -- EmptySwitchStatementRule.cpp:13-26, EmptySwitchStatementRule
    { directory := chars! "empty", source := chars! "EmptySwitchStatementRule.cpp",
      kind := .visitor, name := chars! "empty switch statement", priority := 2,
      category := chars! "empty" },
    -- EmptyTryStatementRule.cpp:13-26, EmptyTryStatementRule
    { directory := chars! "empty", source := chars! "EmptyTryStatementRule.cpp", kind := .visitor,
      name := chars! "empty try statement", priority := 2, category := chars! "empty" },
    -- EmptyWhileStatementRule.cpp:13-26, EmptyWhileStatementRule
    { directory := chars! "empty", source := chars! "EmptyWhileStatementRule.cpp",
      kind := .visitor, name := chars! "empty while statement", priority := 2,
      category := chars! "empty" } ]

/-- `oclint-rules/rules/migration/*.cpp`; the lines are beside the rules. -/
def migrationRules : List ShippedRule :=
  [ -- ObjCBoxedExpressionsRule.cpp:81-116, ObjCBoxedExpressionsRule
    { directory := chars! "migration", source := chars! "ObjCBoxedExpressionsRule.cpp",
      kind := .visitor, name := chars! "use boxed expression", priority := 3,
      category := chars! "migration",
      fileNameOverride := some (chars! "ObjCBoxedExpressionsRule.cpp"),
      languagesOverride := some LANG_OBJC },
    -- ObjCContainerLiteralsRule.cpp:12-47, ObjCContainerLiteralsRule
    { directory := chars! "migration", source := chars! "ObjCContainerLiteralsRule.cpp",
      kind := .visitor, name := chars! "use container literal", priority := 3,
      category := chars! "migration",
      fileNameOverride := some (chars! "ObjCContainerLiteralsRule.cpp"),
      languagesOverride := some LANG_OBJC },
    -- ObjCNSNumberLiteralsRule.cpp:75-110, ObjCNSNumberLiteralsRule
    { directory := chars! "migration", source := chars! "ObjCNSNumberLiteralsRule.cpp",
      kind := .visitor, name := chars! "use number literal", priority := 3,
      category := chars! "migration",
      fileNameOverride := some (chars! "ObjCNSNumberLiteralsRule.cpp"),
      languagesOverride := some LANG_OBJC },
    -- ObjCObjectSubscriptingRule.cpp:53-88, ObjCObjectSubscriptingRule
    { directory := chars! "migration", source := chars! "ObjCObjectSubscriptingRule.cpp",
      kind := .visitor, name := chars! "use object subscripting", priority := 3,
      category := chars! "migration",
      fileNameOverride := some (chars! "ObjCObjectSubscriptingRule.cpp"),
      languagesOverride := some LANG_OBJC } ]

/-- `oclint-rules/rules/naming/*.cpp`; the lines are beside the rules. -/
def namingRules : List ShippedRule :=
  [ -- LongVariableNameRule.cpp:14-27, LongVariableNameRule
    { directory := chars! "naming", source := chars! "LongVariableNameRule.cpp", kind := .visitor,
      name := chars! "long variable name", priority := 3, category := chars! "naming",
      thresholds := [(chars! "LONG_VARIABLE_NAME", chars! "The long variable name reporting threshold, default value is 20.")] },
    -- ShortVariableNameRule.cpp:55-68, ShortVariableNameRule
    { directory := chars! "naming", source := chars! "ShortVariableNameRule.cpp", kind := .visitor,
      name := chars! "short variable name", priority := 3, category := chars! "naming",
      thresholds := [(chars! "SHORT_VARIABLE_NAME", chars! "The short variable name reporting threshold, default value is 3.")] } ]

/-- `oclint-rules/rules/redundant/*.cpp`; the lines are beside the rules. -/
def redundantRules : List ShippedRule :=
  [ -- RedundantConditionalOperatorRule.cpp:148-161, RedundantConditionalOperatorRule
    { directory := chars! "redundant", source := chars! "RedundantConditionalOperatorRule.cpp",
      kind := .visitor, name := chars! "redundant conditional operator", priority := 3,
      category := chars! "redundant" },
    -- RedundantIfStatementRule.cpp:78-91, RedundantIfStatementRule
    { directory := chars! "redundant", source := chars! "RedundantIfStatementRule.cpp",
      kind := .visitor, name := chars! "redundant if statement", priority := 3,
      category := chars! "redundant" },
    -- RedundantLocalVariableRule.cpp:45-58, RedundantLocalVariableRule
    { directory := chars! "redundant", source := chars! "RedundantLocalVariableRule.cpp",
      kind := .visitor, name := chars! "redundant local variable", priority := 3,
      category := chars! "redundant" },
    -- RedundantNilCheckRule.cpp:43-61, RedundantNilCheckRule
    { directory := chars! "redundant", source := chars! "RedundantNilCheckRule.cpp",
      kind := .visitor, name := chars! "redundant nil check", priority := 3,
      category := chars! "redundant", languagesOverride := some LANG_OBJC },
    -- UnnecessaryElseStatementRule.cpp:75-88, UnnecessaryElseStatementRule
    { directory := chars! "redundant", source := chars! "UnnecessaryElseStatementRule.cpp",
      kind := .visitor, name := chars! "unnecessary else statement", priority := 3,
      category := chars! "redundant" },
    -- UnnecessaryNullCheckForCXXDeallocRule.cpp:100-135, UnnecessaryNullCheckForCXXDeallocRule
    { directory := chars! "redundant",
      source := chars! "UnnecessaryNullCheckForCXXDeallocRule.cpp", kind := .visitor,
      name := chars! "unnecessary null check for dealloc", priority := 3,
      category := chars! "redundant",
      fileNameOverride := some (chars! "UnnecessaryNullCheckForCXXDeallocRule.cpp"),
      languagesOverride := some LANG_CXX },
    -- UselessParenthesesRule.cpp:20-33, UselessParenthesesRule
    { directory := chars! "redundant", source := chars! "UselessParenthesesRule.cpp",
      kind := .visitor, name := chars! "useless parentheses", priority := 3,
      category := chars! "redundant" } ]

/-- `oclint-rules/rules/size/*.cpp`; the lines are beside the rules. -/
def sizeRules : List ShippedRule :=
  [ -- CyclomaticComplexityRule.cpp:35-78, CyclomaticComplexityRule
    { directory := chars! "size", source := chars! "CyclomaticComplexityRule.cpp",
      kind := .visitor, name := chars! "high cyclomatic complexity", priority := 2,
      category := chars! "size", fileNameOverride := some (chars! "CyclomaticComplexityRule.cpp"),
      cudaOverride := some (CUDA_HOST ||| CUDA_GLOBAL),
      thresholds := [(chars! "CYCLOMATIC_COMPLEXITY", chars! "The cyclomatic complexity reporting threshold, default value is 10.")] },
    -- LongClassRule.cpp:28-41, LongClassRule
    { directory := chars! "size", source := chars! "LongClassRule.cpp", kind := .visitor,
      name := chars! "long class", priority := 3, category := chars! "size",
      thresholds := [(chars! "LONG_CLASS", chars! "The class size reporting threshold, default value is 1000.")] },
    -- LongLineRule.cpp:12-25, LongLineRule
    { directory := chars! "size", source := chars! "LongLineRule.cpp", kind := .lines,
      name := chars! "long line", priority := 3, category := chars! "size",
      thresholds := [(chars! "LONG_LINE", chars! "The long line reporting threshold, default value is 100.")] },
    -- LongMethodRule.cpp:32-45, LongMethodRule
    { directory := chars! "size", source := chars! "LongMethodRule.cpp", kind := .visitor,
      name := chars! "long method", priority := 3, category := chars! "size",
      thresholds := [(chars! "LONG_METHOD", chars! "The long method reporting threshold, default value is 50.")] },
    -- NPathComplexityRule.cpp:41-83, NPathComplexityRule
    { directory := chars! "size", source := chars! "NPathComplexityRule.cpp", kind := .visitor,
      name := chars! "high npath complexity", priority := 2, category := chars! "size",
      identifierOverride := some (chars! "HighNPathComplexity"),
      fileNameOverride := some (chars! "NPathComplexityRule.cpp"),
      thresholds := [(chars! "NPATH_COMPLEXITY", chars! "The NPath complexity reporting threshold, default value is 200.")] },
    -- NcssMethodCountRule.cpp:27-60, NcssMethodCountRule
    { directory := chars! "size", source := chars! "NcssMethodCountRule.cpp", kind := .visitor,
      name := chars! "high ncss method", priority := 2, category := chars! "size",
      fileNameOverride := some (chars! "NcssMethodCountRule.cpp"),
      thresholds := [(chars! "NCSS_METHOD", chars! "The high NCSS method reporting threshold, default value is 30.")] },
    -- NestedBlockDepthRule.cpp:14-43, NestedBlockDepthRule
    { directory := chars! "size", source := chars! "NestedBlockDepthRule.cpp", kind := .visitor,
      name := chars! "deep nested block", priority := 3, category := chars! "size",
      fileNameOverride := some (chars! "NestedBlockDepthRule.cpp"),
      thresholds := [(chars! "NESTED_BLOCK_DEPTH", chars! "The depth of a block or compound statement reporting threshold, default value is 5.")] },
    -- TooManyFieldsRule.cpp:16-29, TooManyFieldsRule
    { directory := chars! "size", source := chars! "TooManyFieldsRule.cpp", kind := .visitor,
      name := chars! "too many fields", priority := 3, category := chars! "size",
      thresholds := [(chars! "TOO_MANY_FIELDS", chars! "The reporting threshold for too many fields, default value is 20.")] },
    -- TooManyMethodsRule.cpp:16-29, TooManyMethodsRule
    { directory := chars! "size", source := chars! "TooManyMethodsRule.cpp", kind := .visitor,
      name := chars! "too many methods", priority := 3, category := chars! "size",
      thresholds := [(chars! "TOO_MANY_METHODS", chars! "The reporting threshold for too many methods, default value is 30.")] },
    -- TooManyParametersRule.cpp:28-41, TooManyParametersRule
    { directory := chars! "size", source := chars! "TooManyParametersRule.cpp", kind := .visitor,
      name := chars! "too many parameters", priority := 3, category := chars! "size",
      thresholds := [(chars! "TOO_MANY_PARAMETERS", chars! "The reporting threshold for too many parameters, default value is 10.")] } ]

/-- `oclint-rules/rules/unused/*.cpp`; the lines are beside the rules. -/
def unusedRules : List ShippedRule :=
  [ -- UnusedLocalVariableRule.cpp:137-150, UnusedLocalVariableRule
    { directory := chars! "unused", source := chars! "UnusedLocalVariableRule.cpp",
      kind := .visitor, name := chars! "unused local variable", priority := 3,
      category := chars! "unused" },
    -- UnusedMethodParameterRule.cpp:131-144, UnusedMethodParameterRule
    { directory := chars! "unused", source := chars! "UnusedMethodParameterRule.cpp",
      kind := .visitor, name := chars! "unused method parameter", priority := 3,
      category := chars! "unused" } ]

/-- All of them; `oclint-rules/rules/CMakeLists.txt:48-58`. -/
def shippedRules : List ShippedRule :=
  basicRules ++ cocoaRules ++ conventionRules ++ cudaRules ++ designRules ++ emptyRules ++ migrationRules ++ namingRules ++ redundantRules ++ sizeRules ++ unusedRules

/-- The rule object with number `r` is number `r` of the list. -/
def shippedRule? (r : RuleId) : Option ShippedRule := shippedRules[r]?

/-- `identifier()` of the rule objects. -/
def shippedIdentifier (r : RuleId) : Str :=
  match shippedRule? r with
  | some s => s.identifier
  | none => []

/-- `attributeName()` of the rule objects. -/
def shippedAttribute (r : RuleId) : Str :=
  match shippedRule? r with
  | some s => s.attributeName
  | none => []

/-- What the reporters ask the rule objects. -/
def shippedInfo (r : RuleId) : RuleInfo :=
  match shippedRule? r with
  | some s => s.info
  | none => ⟨[], [], 0⟩

/-- `priority()` of the rule objects. -/
def shippedPriority (r : RuleId) : Int := (shippedInfo r).priority

end Oclint
