import Verif.Model.TestLists
import Verif.Spec.CMake

/-!
# Which tests should be built
-/

namespace Oclint.Spec
open Oclint

/-- The directory of the tests. -/
def testsPlace (home : Str) : Str := home ++ "/../oclint-rules/test".toList

/-- The program of tests of a request. -/
def requestedTest (home : Str) (r : RuleRequest) : TestProgram :=
  ⟨r.className ++ "RuleTest".toList, [testSource home r.category r.className]⟩

/-- No two requests for a test, and no such request and a program that there is, are for one name. -/
structure FreshTests (tests : List TestProgram) (rs : List RuleRequest) : Prop where
  distinct : ((rs.filter (·.tests)).map (·.className)).Nodup
  new : ∀ r ∈ rs, r.tests = true → ∀ p ∈ tests, p.name ≠ r.className ++ "RuleTest".toList

/-- A disk has the lists of tests of the repository, every source of a test that is in it and what the
tests share. -/
structure ShippedTests (root : Str) (d : Disk) : Prop where
  top : d.file (root ++ "/CMakeLists.txt".toList) = some (cmText testRootLines)
  lists : ∀ c ∈ testCategoryLists, d.file (root ++ "/".toList ++ c.1 ++ "/CMakeLists.txt".toList) =
    some (cmText c.2)
  canary : d.file (root ++ "/CanaryTest.cpp".toList) ≠ none
  helper : d.file (root ++ "/headers/TestRuleOnCode.cpp".toList) ≠ none
  sources : ∀ s ∈ testSources, d.file (root ++ "/".toList ++ s.1 ++ "/".toList ++ s.2) ≠ none

/-- The tests that need CUDA. -/
def cudaTests : List (Str × Str) :=
  [("abstract".toList, "CUDASupportTest.cpp".toList),
   ("cuda".toList, "CudaBranchDivergenceRuleTest.cpp".toList),
   ("cuda".toList, "CudaCyclomaticComplexityRuleTest.cpp".toList)]

/-! ## Reporters -/

/-- The program of tests of a request. -/
def requestedReporterTest (home : Str) (r : ReporterRequest) : Plugin :=
  ⟨r.className ++ "ReporterTest".toList, reporterTestSource home r.className⟩

/-- The tests of the reporters that come with OCLint. -/
def shippedReporterTests : List Str :=
  "CanaryTest".toList :: shippedReporterNames.map (· ++ "ReporterTest".toList)

/-! ## The other projects -/

/-- The tests of `oclint-core`. -/
def coreTests : List Str :=
  ["CanaryTest".toList, "RawResultsTest".toList, "ResultCollectorTest".toList, "RuleBaseTest".toList,
   "RuleCarrierTest".toList, "RuleConfigurationTest".toList, "RuleSetTest".toList,
   "UniqueResultsTest".toList, "VersionTest".toList, "ViolationSetTest".toList, "ViolationTest".toList]

/-- The tests of `oclint-metrics`. -/
def metricsTests : List Str :=
  ["CanaryTest".toList, "CyclomaticComplexityMetricTest".toList, "NPathComplexityMetricTest".toList,
   "NcssMetricTest".toList, "StmtDepthMetricTest".toList]

/-- The tests of `oclint-driver`. -/
def driverTests : List Str := ["RulesetFilterTest".toList]

/-- The lists of the projects whose tests are a list of names, and the tests whose sources are beside. -/
def namedTests : List (List Str × List Str) :=
  [(reporterTestLines, shippedReporterTests), (coreTestLines, coreTests),
   (metricsTestLines, metricsTests), (driverTestLines, driverTests)]

end Oclint.Spec
