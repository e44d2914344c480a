import Verif.Model.CMake

/-!
# Which tests of rules are built

Models `oclint-rules/test/CMakeLists.txt` with the `CMakeLists.txt` below it, in the part of CMake's
language of `CMake.lean`, to which `IF(TEST_CUDA)` and `ENDIF()` come here.  They are read instead of
the lists of rules when the project is configured for testing (`oclint-rules/CMakeLists.txt:24-29`).

Simplifications: those of `CMake.lean`.  Other conditions, `ELSE`, an `IF` within another one, and sources
with a slash count as errors.  Names that CMake keeps for targets of its own are not refused.  What the
macros set up for linking is left out.
-/

namespace Oclint

/-- A program of tests: the target, which is also the name of the test, and the paths of its sources. -/
structure TestProgram where
  name : Str
  sources : List Str
  deriving Repr, DecidableEq

/-- `oclint-rules/test/CMakeLists.txt:1`: one more target. -/
def testProjectTargets : List Str := ruleProjectTargets ++ [chars! "test_helper"]

/-- The words that mean something to `ADD_EXECUTABLE`. -/
def executableWords : List Str :=
  [chars! "WIN32", chars! "MACOSX_BUNDLE", chars! "EXCLUDE_FROM_ALL", chars! "IMPORTED", chars! "ALIAS",
   chars! "GLOBAL"]

/-- `oclint-rules/test/CMakeLists.txt:17-21`, `build_test`: `ADD_EXECUTABLE(${name} ${ARGN})` and
`ADD_TEST`.  An error if the name is none for a target, if there is such a target, if there are no
sources, or if one is not there. -/
def buildTest (d : Disk) (dir : Str) (tests : List TestProgram) : List Str → Option (List TestProgram)
  | [] => none
  | name :: files =>
    if name.all cmTargetChar && !testProjectTargets.contains name &&
        !(tests.map (·.name)).contains name && !files.isEmpty &&
        files.all (fun f => !f.contains '/' && !executableWords.contains f &&
          (d.file (dir ++ '/' :: f)).isSome) then
      some (tests ++ [⟨name, files.map fun f => dir ++ '/' :: f⟩])
    else none

/-- What has been read of the list of a category. -/
structure TestScope where
  /-- within `IF`: whether the condition holds -/
  branch : Option Bool
  vars : Str → Str
  tests : List TestProgram

/-- A command of the list of a category; `cuda` is the value of `TEST_CUDA`
(`oclint-core/cmake/OCLintConfig.cmake:103-109`). -/
def testListCommand (cuda : Bool) (d : Disk) (dir : Str) (s : TestScope) (c : CmCommand) :
    Option TestScope :=
  if c.name = chars! "if" then
    if s.branch = none ∧ c.args = [⟨chars! "TEST_CUDA", false⟩] then some { s with branch := some cuda }
    else none
  else if c.name = chars! "endif" then
    if s.branch = none then none else some { s with branch := none }
  else if c.name = chars! "set" then
    if s.branch = some false then some s
    else (cmArgsOf s.vars c.args).bind fun args => (cmSet s.vars args).map fun v => { s with vars := v }
  else if c.name = chars! "build_test" then
    if s.branch = some false then some s
    else (cmArgsOf s.vars c.args).bind fun args =>
      (buildTest d dir s.tests args).map fun t => { s with tests := t }
  else none

/-- The list of a category, in a scope of its own. -/
def readTestList (cuda : Bool) (d : Disk) (dir : Str) (vars : Str → Str) (tests : List TestProgram)
    (text : Str) : Option (List TestProgram) :=
  (cmCommands text).bind fun cs =>
    match cs.foldlM (testListCommand cuda d dir) ⟨none, vars, tests⟩ with
    | some ⟨none, _, t⟩ => some t
    | _ => none

/-- What has been read of the list of categories. -/
structure TestRoot where
  vars : Str → Str
  tests : List TestProgram
  added : List Str

/-- `ADD_SUBDIRECTORY`: the directory must have a list, and cannot be added twice.  Other characters than
letters, digits and underscores count as errors. -/
def addTestDirectory (cuda : Bool) (d : Disk) (root : Str) (s : TestRoot) (category : Str) :
    Option TestRoot :=
  if category = [] ∨ !category.all cmNameChar ∨ s.added.contains category then none
  else
    let dir := root ++ '/' :: category
    (d.file (dir ++ chars! "/CMakeLists.txt")).bind fun text =>
      (readTestList cuda d dir s.vars s.tests text).map fun t =>
        { s with tests := t, added := s.added ++ [category] }

/-- The library with what tests share, `oclint-rules/test/CMakeLists.txt:1`; others count as errors. -/
def testHelperArgs : List Str := [chars! "test_helper", chars! "headers/TestRuleOnCode.cpp"]

/-- A command of the list of categories. -/
def testRootPlain (cuda : Bool) (d : Disk) (root : Str) (s : TestRoot) (c : CmCommand) :
    Option TestRoot :=
  (cmArgsOf s.vars c.args).bind fun args =>
    if c.name = chars! "set" then (cmSet s.vars args).map fun v => { s with vars := v }
    else if c.name = chars! "add_library" then
      if args = testHelperArgs ∧ (d.file (root ++ chars! "/headers/TestRuleOnCode.cpp")).isSome then some s
      else none
    else if c.name = chars! "build_test" then
      (buildTest d root s.tests args).map fun t => { s with tests := t }
    else if c.name = chars! "add_subdirectory" then
      match args with
      | [category] => addTestDirectory cuda d root s category
      | _ => none
    else none

/-- The same, where the flag is whether a macro is being defined. -/
def testRootCommand (cuda : Bool) (d : Disk) (root : Str) (s : Bool × TestRoot) (c : CmCommand) :
    Option (Bool × TestRoot) :=
  if s.1 then some (!decide (c.name = chars! "endmacro"), s.2)
  else if c.name = chars! "macro" then some (true, s.2)
  else (testRootPlain cuda d root s.2 c).map (false, ·)

/-- `oclint-rules/CMakeLists.txt:24-26`, `ADD_SUBDIRECTORY(test)`. -/
def configureTests (cuda : Bool) (d : Disk) (root : Str) : Option TestRoot :=
  (d.file (root ++ chars! "/CMakeLists.txt")).bind fun text =>
    (cmCommands text).bind fun cs =>
      match cs.foldlM (testRootCommand cuda d root) (false, ⟨fun _ => [], [], []⟩) with
      | some (false, s) => some s
      | _ => none

/-! ## The texts, line by line -/

/-- `oclint-rules/test/CMakeLists.txt:1-38`. -/
def testRootLines : List Str :=
  [chars! "ADD_LIBRARY(test_helper headers/TestRuleOnCode.cpp)",
   chars! "SET(TEST_LIBS",
   chars! "    test_helper",
   chars! "    OCLintAbstractRule",
   chars! "    OCLintMetric",
   chars! "    OCLintHelper",
   chars! "    OCLintUtil",
   chars! "    OCLintCore",
   chars! "    OCLintRuleSet",
   chars! "    ${GTEST_LIBS}",
   chars! "    gtest_main",
   chars! "    gmock_main",
   chars! "    ${PROFILE_RT_LIBS}",
   chars! "    ${CLANG_LIBRARIES}",
   chars! "    ${REQ_LLVM_LIBRARIES}",
   chars! ")",
   chars! "MACRO(build_test name)",
   chars! "    ADD_EXECUTABLE(${name} ${ARGN})",
   chars! "    TARGET_LINK_LIBRARIES(${name} ${TEST_LIBS})",
   chars! "    ADD_TEST(${name} ${EXECUTABLE_OUTPUT_PATH}/${name})",
   chars! "ENDMACRO(build_test)",
   chars! "",
   chars! "BUILD_TEST(CanaryTest CanaryTest.cpp)",
   chars! "",
   chars! "ADD_SUBDIRECTORY(abstract)",
   chars! "ADD_SUBDIRECTORY(helper)",
   chars! "",
   chars! "ADD_SUBDIRECTORY(basic)",
   chars! "ADD_SUBDIRECTORY(cocoa)",
   chars! "ADD_SUBDIRECTORY(convention)",
   chars! "ADD_SUBDIRECTORY(cuda)",
   chars! "ADD_SUBDIRECTORY(design)",
   chars! "ADD_SUBDIRECTORY(empty)",
   chars! "ADD_SUBDIRECTORY(migration)",
   chars! "ADD_SUBDIRECTORY(naming)",
   chars! "ADD_SUBDIRECTORY(redundant)",
   chars! "ADD_SUBDIRECTORY(size)",
   chars! "ADD_SUBDIRECTORY(unused)"]

/-- `oclint-rules/test/abstract/CMakeLists.txt:1-11`. -/
def abstractTestLines : List Str :=
  [chars! "BUILD_TEST(AbstractTests",
   chars! "    LanguageSelectionTest.cpp",
   chars! "    MacroLocationTest.cpp",
   chars! "    TagBasedViolationTest.cpp",
   chars! ")",
   chars! "",
   chars! "IF(TEST_CUDA)",
   chars! "    BUILD_TEST(AbstractCUDATests",
   chars! "        CUDASupportTest.cpp",
   chars! "    )",
   chars! "ENDIF()"]

/-- `oclint-rules/test/helper/CMakeLists.txt:1-4`. -/
def helperTestLines : List Str :=
  [chars! "BUILD_TEST(HelperTests",
   chars! "    AttributeHelperTest.cpp",
   chars! "    SuppressHelperTest.cpp",
   chars! ")"]

/-- `oclint-rules/test/basic/CMakeLists.txt:1-17`. -/
def basicTestLines : List Str :=
  [chars! "BUILD_TEST(BasicTests",
   chars! "    BitwiseOperatorInConditionalRuleTest.cpp",
   chars! "    BrokenNullCheckRuleTest.cpp",
   chars! "    BrokenOddnessCheckRuleTest.cpp",
   chars! "    CollapsibleIfStatementsRuleTest.cpp",
   chars! "    ConstantConditionalOperatorRuleTest.cpp",
   chars! "    ConstantIfExpressionRuleTest.cpp",
   chars! "    DeadCodeRuleTest.cpp",
   chars! "    DoubleNegativeRuleTest.cpp",
   chars! "    ForLoopShouldBeWhileLoopRuleTest.cpp",
   chars! "    GotoStatementRuleTest.cpp",
   chars! "    JumbledIncrementerRuleTest.cpp",
   chars! "    MisplacedNullCheckRuleTest.cpp",
   chars! "    MultipleUnaryOperatorRuleTest.cpp",
   chars! "    ReturnFromFinallyBlockRuleTest.cpp",
   chars! "    ThrowExceptionFromFinallyBlockRuleTest.cpp",
   chars! ")"]

/-- `oclint-rules/test/cocoa/CMakeLists.txt:1-7`. -/
def cocoaTestLines : List Str :=
  [chars! "BUILD_TEST(CocoaTests",
   chars! "    ObjCVerifyIsEqualHashRuleTest.cpp",
   chars! "    ObjCVerifyMustCallSuperRuleTest.cpp",
   chars! "    ObjCVerifyProhibitedCallRuleTest.cpp",
   chars! "    ObjCVerifyProtectedMethodRuleTest.cpp",
   chars! "    ObjCVerifySubclassMustImplementRuleTest.cpp",
   chars! ")"]

/-- `oclint-rules/test/convention/CMakeLists.txt:1-15`. -/
def conventionTestLines : List Str :=
  [chars! "BUILD_TEST(ConventionTests",
   chars! "    AvoidBranchingStatementAsLastInLoopRuleTest.cpp",
   chars! "    BaseClassDestructorShouldBeVirtualOrProtectedRuleTest.cpp",
   chars! "    CoveredSwitchStatementsDontNeedDefaultRuleTest.cpp",
   chars! "    DefaultLabelNotLastInSwitchStatementRuleTest.cpp",
   chars! "    DestructorOfVirtualClassRuleTest.cpp",
   chars! "    InvertedLogicRuleTest.cpp",
   chars! "    MissingBreakInSwitchStatementRuleTest.cpp",
   chars! "    NonCaseLabelInSwitchStatementRuleTest.cpp",
   chars! "    ObjCAssignIvarOutsideAccessorsRuleTest.cpp",
   chars! "    ParameterReassignmentRuleTest.cpp",
   chars! "    PreferEarlyExitRuleTest.cpp",
   chars! "    SwitchStatementsShouldHaveDefaultRuleTest.cpp",
   chars! "    TooFewBranchesInSwitchStatementRuleTest.cpp",
   chars! ")"]

/-- `oclint-rules/test/cuda/CMakeLists.txt:1-6`. -/
def cudaTestLines : List Str :=
  [chars! "IF(TEST_CUDA)",
   chars! "BUILD_TEST(CUDATests",
   chars! "    CudaBranchDivergenceRuleTest.cpp",
   chars! "    CudaCyclomaticComplexityRuleTest.cpp",
   chars! ")",
   chars! "ENDIF()"]

/-- `oclint-rules/test/design/CMakeLists.txt:1-5`. -/
def designTestLines : List Str :=
  [chars! "BUILD_TEST(DesignTests",
   chars! "    AvoidDefaultArgumentsOnVirtualMethodsRuleTest.cpp",
   chars! "    AvoidPrivateStaticMembersRuleTest.cpp",
   chars! "    FeatureEnvyRuleTest.cpp",
   chars! ")"]

/-- `oclint-rules/test/empty/CMakeLists.txt:1-11`. -/
def emptyTestLines : List Str :=
  [chars! "BUILD_TEST(EmptyTests",
   chars! "    EmptyCatchStatementRuleTest.cpp",
   chars! "    EmptyDoWhileStatementRuleTest.cpp",
   chars! "    EmptyElseBlockRuleTest.cpp",
   chars! "    EmptyFinallyStatementRuleTest.cpp",
   chars! "    EmptyForStatementRuleTest.cpp",
   chars! "    EmptyIfStatementRuleTest.cpp",
   chars! "    EmptySwitchStatementRuleTest.cpp",
   chars! "    EmptyTryStatementRuleTest.cpp",
   chars! "    EmptyWhileStatementRuleTest.cpp",
   chars! ")"]

/-- `oclint-rules/test/migration/CMakeLists.txt:1-6`. -/
def migrationTestLines : List Str :=
  [chars! "BUILD_TEST(MigrationTests",
   chars! "    ObjCBoxedExpressionsRuleTest.cpp",
   chars! "    ObjCContainerLiteralsRuleTest.cpp",
   chars! "    ObjCNSNumberLiteralsRuleTest.cpp",
   chars! "    ObjCObjectSubscriptingRuleTest.cpp",
   chars! ")"]

/-- `oclint-rules/test/naming/CMakeLists.txt:1-4`. -/
def namingTestLines : List Str :=
  [chars! "BUILD_TEST(NamingTests",
   chars! "    LongVariableNameRuleTest.cpp",
   chars! "    ShortVariableNameRuleTest.cpp",
   chars! ")"]

/-- `oclint-rules/test/redundant/CMakeLists.txt:1-9`. -/
def redundantTestLines : List Str :=
  [chars! "BUILD_TEST(RedundantTests",
   chars! "    RedundantConditionalOperatorRuleTest.cpp",
   chars! "    RedundantIfStatementRuleTest.cpp",
   chars! "    RedundantLocalVariableRuleTest.cpp",
   chars! "    RedundantNilCheckRuleTest.cpp",
   chars! "    UnnecessaryElseStatementRuleTest.cpp",
   chars! "    UnnecessaryNullCheckForCXXDeallocRuleTest.cpp",
   chars! "    UselessParenthesesRuleTest.cpp",
   chars! ")"]

/-- `oclint-rules/test/size/CMakeLists.txt:1-12`. -/
def sizeTestLines : List Str :=
  [chars! "BUILD_TEST(SizeTests",
   chars! "    CyclomaticComplexityRuleTest.cpp",
   chars! "    LongClassRuleTest.cpp",
   chars! "    LongLineRuleTest.cpp",
   chars! "    LongMethodRuleTest.cpp",
   chars! "    NPathComplexityRuleTest.cpp",
   chars! "    NcssMethodCountRuleTest.cpp",
   chars! "    NestedBlockDepthRuleTest.cpp",
   chars! "    TooManyFieldsRuleTest.cpp",
   chars! "    TooManyMethodsRuleTest.cpp",
   chars! "    TooManyParametersRuleTest.cpp",
   chars! ")"]

/-- `oclint-rules/test/unused/CMakeLists.txt:1-4`. -/
def unusedTestLines : List Str :=
  [chars! "BUILD_TEST(UnusedTests",
   chars! "    UnusedLocalVariableRuleTest.cpp",
   chars! "    UnusedMethodParameterRuleTest.cpp",
   chars! ")"]

/-- The categories of tests and their lists. -/
def testCategoryLists : List (Str × List Str) :=
  [(chars! "abstract", abstractTestLines),
   (chars! "helper", helperTestLines),
   (chars! "basic", basicTestLines),
   (chars! "cocoa", cocoaTestLines),
   (chars! "convention", conventionTestLines),
   (chars! "cuda", cudaTestLines),
   (chars! "design", designTestLines),
   (chars! "empty", emptyTestLines),
   (chars! "migration", migrationTestLines),
   (chars! "naming", namingTestLines),
   (chars! "redundant", redundantTestLines),
   (chars! "size", sizeTestLines),
   (chars! "unused", unusedTestLines)]

/-- The sources of tests below `oclint-rules/test`: directory and file. `headers` has no tests. -/
def testSources : List (Str × Str) :=
  [(chars! "abstract", chars! "CUDASupportTest.cpp"),
   (chars! "abstract", chars! "LanguageSelectionTest.cpp"),
   (chars! "abstract", chars! "MacroLocationTest.cpp"),
   (chars! "abstract", chars! "TagBasedViolationTest.cpp"),
   (chars! "helper", chars! "AttributeHelperTest.cpp"),
   (chars! "helper", chars! "SuppressHelperTest.cpp"),
   (chars! "basic", chars! "BitwiseOperatorInConditionalRuleTest.cpp"),
   (chars! "basic", chars! "BrokenNullCheckRuleTest.cpp"),
   (chars! "basic", chars! "BrokenOddnessCheckRuleTest.cpp"),
   (chars! "basic", chars! "CollapsibleIfStatementsRuleTest.cpp"),
   (chars! "basic", chars! "ConstantConditionalOperatorRuleTest.cpp"),
   (chars! "basic", chars! "ConstantIfExpressionRuleTest.cpp"),
   (chars! "basic", chars! "DeadCodeRuleTest.cpp"),
   (chars! "basic", chars! "DoubleNegativeRuleTest.cpp"),
   (chars! "basic", chars! "ForLoopShouldBeWhileLoopRuleTest.cpp"),
   (chars! "basic", chars! "GotoStatementRuleTest.cpp"),
   (chars! "basic", chars! "JumbledIncrementerRuleTest.cpp"),
   (chars! "basic", chars! "MisplacedNullCheckRuleTest.cpp"),
   (chars! "basic", chars! "MultipleUnaryOperatorRuleTest.cpp"),
   (chars! "basic", chars! "ReturnFromFinallyBlockRuleTest.cpp"),
   (chars! "basic", chars! "ThrowExceptionFromFinallyBlockRuleTest.cpp"),
   (chars! "cocoa", chars! "ObjCVerifyIsEqualHashRuleTest.cpp"),
   (chars! "cocoa", chars! "ObjCVerifyMustCallSuperRuleTest.cpp"),
   (chars! "cocoa", chars! "ObjCVerifyProhibitedCallRuleTest.cpp"),
   (chars! "cocoa", chars! "ObjCVerifyProtectedMethodRuleTest.cpp"),
   (chars! "cocoa", chars! "ObjCVerifySubclassMustImplementRuleTest.cpp"),
   (chars! "convention", chars! "AvoidBranchingStatementAsLastInLoopRuleTest.cpp"),
   (chars! "convention", chars! "BaseClassDestructorShouldBeVirtualOrProtectedRuleTest.cpp"),
   (chars! "convention", chars! "CoveredSwitchStatementsDontNeedDefaultRuleTest.cpp"),
   (chars! "convention", chars! "DefaultLabelNotLastInSwitchStatementRuleTest.cpp"),
   (chars! "convention", chars! "DestructorOfVirtualClassRuleTest.cpp"),
   (chars! "convention", chars! "InvertedLogicRuleTest.cpp"),
   (chars! "convention", chars! "MissingBreakInSwitchStatementRuleTest.cpp"),
   (chars! "convention", chars! "NonCaseLabelInSwitchStatementRuleTest.cpp"),
   (chars! "convention", chars! "ObjCAssignIvarOutsideAccessorsRuleTest.cpp"),
   (chars! "convention", chars! "ParameterReassignmentRuleTest.cpp"),
   (chars! "convention", chars! "PreferEarlyExitRuleTest.cpp"),
   (chars! "convention", chars! "SwitchStatementsShouldHaveDefaultRuleTest.cpp"),
   (chars! "convention", chars! "TooFewBranchesInSwitchStatementRuleTest.cpp"),
   (chars! "cuda", chars! "CudaBranchDivergenceRuleTest.cpp"),
   (chars! "cuda", chars! "CudaCyclomaticComplexityRuleTest.cpp"),
   (chars! "design", chars! "AvoidDefaultArgumentsOnVirtualMethodsRuleTest.cpp"),
   (chars! "design", chars! "AvoidPrivateStaticMembersRuleTest.cpp"),
   (chars! "design", chars! "FeatureEnvyRuleTest.cpp"),
   (chars! "empty", chars! "EmptyCatchStatementRuleTest.cpp"),
   (chars! "empty", chars! "EmptyDoWhileStatementRuleTest.cpp"),
   (chars! "empty", chars! "EmptyElseBlockRuleTest.cpp"),
   (chars! "empty", chars! "EmptyFinallyStatementRuleTest.cpp"),
   (chars! "empty", chars! "EmptyForStatementRuleTest.cpp"),
   (chars! "empty", chars! "EmptyIfStatementRuleTest.cpp"),
   (chars! "empty", chars! "EmptySwitchStatementRuleTest.cpp"),
   (chars! "empty", chars! "EmptyTryStatementRuleTest.cpp"),
   (chars! "empty", chars! "EmptyWhileStatementRuleTest.cpp"),
   (chars! "migration", chars! "ObjCBoxedExpressionsRuleTest.cpp"),
   (chars! "migration", chars! "ObjCContainerLiteralsRuleTest.cpp"),
   (chars! "migration", chars! "ObjCNSNumberLiteralsRuleTest.cpp"),
   (chars! "migration", chars! "ObjCObjectSubscriptingRuleTest.cpp"),
   (chars! "naming", chars! "LongVariableNameRuleTest.cpp"),
   (chars! "naming", chars! "ShortVariableNameRuleTest.cpp"),
   (chars! "redundant", chars! "RedundantConditionalOperatorRuleTest.cpp"),
   (chars! "redundant", chars! "RedundantIfStatementRuleTest.cpp"),
   (chars! "redundant", chars! "RedundantLocalVariableRuleTest.cpp"),
   (chars! "redundant", chars! "RedundantNilCheckRuleTest.cpp"),
   (chars! "redundant", chars! "UnnecessaryElseStatementRuleTest.cpp"),
   (chars! "redundant", chars! "UnnecessaryNullCheckForCXXDeallocRuleTest.cpp"),
   (chars! "redundant", chars! "UselessParenthesesRuleTest.cpp"),
   (chars! "size", chars! "CyclomaticComplexityRuleTest.cpp"),
   (chars! "size", chars! "LongClassRuleTest.cpp"),
   (chars! "size", chars! "LongLineRuleTest.cpp"),
   (chars! "size", chars! "LongMethodRuleTest.cpp"),
   (chars! "size", chars! "NPathComplexityRuleTest.cpp"),
   (chars! "size", chars! "NcssMethodCountRuleTest.cpp"),
   (chars! "size", chars! "NestedBlockDepthRuleTest.cpp"),
   (chars! "size", chars! "TooManyFieldsRuleTest.cpp"),
   (chars! "size", chars! "TooManyMethodsRuleTest.cpp"),
   (chars! "size", chars! "TooManyParametersRuleTest.cpp"),
   (chars! "unused", chars! "UnusedLocalVariableRuleTest.cpp"),
   (chars! "unused", chars! "UnusedMethodParameterRuleTest.cpp")]

end Oclint
