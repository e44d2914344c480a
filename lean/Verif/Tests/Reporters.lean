import Verif.Model.Reporters
import Verif.Model.RulesetFilter
import Verif.Tests.Support

/-!
# Tests of the repository, reporters, core and driver

Written by hand after `oclint-reporters/test/*.cpp`, `oclint-core/test/*.cpp` and
`oclint-driver/test/RulesetFilterTest.cpp`.  Left out are the tests of double attributes (the model
writes no doubles) and the tests of the constructors and of the version.
-/

namespace Oclint

set_option linter.all false

/-- `EXPECT_THAT(text, HasSubstr(part))` for several parts. -/
def hasParts (text : Str) (parts : List String) : Bool := parts.all fun p => containsStr text p.toList

/-- A mocked rule answers nothing. -/
def mockInfo : RuleId → RuleInfo := fun _ => ⟨[], [], 0⟩

/-- The results of `ReportTestResults.h:1-45`. -/
def noResults : ResultsView := ⟨.empty, fun _ => []⟩

def someViolation : Violation := ⟨some 0, "test path".toList, 1, 2, 3, 4, "test message".toList⟩
def violationOne : Violation := ⟨some 0, "test1 path".toList, 1, 2, 3, 4, "test1 message".toList⟩
def violationTwo : Violation := ⟨some 0, "test2 path".toList, 5, 6, 7, 8, "test2 message".toList⟩
def diagnosticOne : Violation := { violationOne with rule := none }
def diagnosticTwo : Violation := { violationTwo with rule := none }

/-! ## `oclint-reporters/test/TextReporterTest.cpp` -/

-- WriteHeader
example : textHeader = "OCLint Report".toList := by decide +kernel
-- WriteFooter
example : textFooter "-test".toList = "[OCLint (https://oclint.org) v-test]".toList := by decide +kernel
-- WriteSummary
example : ("Summary:".toList.isPrefixOf (okOr [] (textSummary mockInfo noResults)) &&
    hasParts (okOr [] (textSummary mockInfo noResults))
      ["TotalFiles=0", "FilesWithViolations=0", "P1=0", "P2=0", "P3=0"]) = true := by decide +kernel
-- WriteViolations
example : hasParts (okOr [] (textViolations mockInfo [violationOne, violationTwo]))
    ["test1 path", "1:2", "test1 message", "test2 path", "5:6", "test2 message"] = true := by decide +kernel
-- WriteViolation
example : hasParts (okOr [] (textViolation mockInfo someViolation)) ["test path", "1:2", "test message"] = true := by
  decide +kernel
-- WriteCompilerErrorOrWarning
example : hasParts (textDiagnostic { someViolation with rule := none }) ["test path", "1:2", "test message"] = true := by
  decide +kernel
-- WriteCompilerDiagnostics
example : hasParts (textDiagnostics [diagnosticOne, diagnosticTwo] "test header text".toList)
    ["test header text", "test1 path", "1:2", "test1 message", "test2 path", "5:6", "test2 message"] = true := by
  decide +kernel

/-! ## `oclint-reporters/test/XcodeReporterTest.cpp` -/

-- WriteViolation
example : hasParts (okOr [] (xcodeViolation mockInfo someViolation))
    [": warning: ", "test path", "1:2", "test message"] = true := by decide +kernel

/-! ## `oclint-reporters/test/JSONReporterTest.cpp` -/

-- WriteHeader
example : hasParts (jsonHeader 0 "test".toList) ["\"version\":\"test\",\"url\":\"https://oclint.org\","] = true := by
  decide +kernel
-- WriteKey
example : jsonKey "key".toList = "\"key\":".toList := by decide +kernel
-- WriteComma, WriteCommaFalse
example : jsonComma false = ",".toList ∧ jsonComma true = [] := by decide +kernel
-- writeKeyIntValue, writeTailKeyIntValue
example : jsonKeyInt "key".toList 1 false = "\"key\":1,".toList ∧ jsonKeyInt "key".toList 1 true = "\"key\":1".toList := by
  decide +kernel
-- writeKeyStringValue, writeTailKeyStringValue
example : jsonKeyString "key".toList "value".toList false = "\"key\":\"value\",".toList ∧
    jsonKeyString "key".toList "value".toList true = "\"key\":\"value\"".toList := by decide +kernel
-- WriteSummary
example : ("\"summary\":".toList.isPrefixOf (okOr [] (jsonSummary mockInfo noResults)) &&
    hasParts (okOr [] (jsonSummary mockInfo noResults))
      ["\"numberOfFiles\":0", "\"numberOfFilesWithViolations\":0", "\"numberOfViolationsWithPriority\":[",
       "{\"priority\":1,\"number\":0}", "{\"priority\":2,\"number\":0}", "{\"priority\":3,\"number\":0}"]) = true := by
  decide +kernel
-- WriteViolation
example : hasParts (jsonViolation mockInfo someViolation)
    ["\"path\":\"test path\"", "\"startLine\":1", "\"startColumn\":2", "\"endLine\":3", "\"endColumn\":4",
     "\"message\":\"test message\""] = true := by decide +kernel

/-! ## `oclint-reporters/test/XMLReporterTest.cpp` -/

-- WriteHeader
example : xmlHeader "test".toList =
    "<?xml version=\"1.0\" encoding=\"UTF-8\" ?><oclint version=\"test\" url=\"https://oclint.org\">".toList := by
  decide +kernel
-- WriteViolation
example : hasParts (xmlViolation mockInfo someViolation)
    ["path=\"test path\"", "startline=\"1\"", "startcolumn=\"2\"", "endline=\"3\"", "endcolumn=\"4\"",
     "message=\"test message\""] = true := by decide +kernel
-- WriteViolationIntAttribute, WriteViolationStringAttribute
example : xmlAttribute "key".toList (toStringInt 1) = " key=\"1\"".toList ∧
    xmlAttribute "key".toList "value".toList = " key=\"value\"".toList := by decide +kernel
-- WriteSummary
example : ("<summary>".toList.isPrefixOf (okOr [] (xmlSummary mockInfo noResults)) &&
    hasParts (okOr [] (xmlSummary mockInfo noResults))
      ["<property name=\"number of files\">0</property>", "<property name=\"files with violations\">0</property>",
       "<property name=\"number of priority 1 violations\">0</property>",
       "<property name=\"number of priority 2 violations\">0</property>",
       "<property name=\"number of priority 3 violations\">0</property>"]) = true := by decide +kernel
-- WriteSummaryIntProperty
example : xmlProperty "key".toList 1 = "<property name=\"key\">1</property>".toList := by decide +kernel

/-! ## `oclint-reporters/test/HTMLReporterTest.cpp` -/

-- WriteHead
example : ("<head>".toList.isPrefixOf htmlHead && hasParts htmlHead ["<title>OCLint Report</title>"] &&
    "</head>".toList.isSuffixOf htmlHead) = true := by decide +kernel
-- WriteSummaryTable
example : hasParts (okOr [] (htmlSummary mockInfo noResults))
    ["<th>Total Files</th><th>Files with Violations</th><th>Priority 1</th><th>Priority 2</th><th>Priority 3</th><th>Compiler Errors</th><th>Compiler Warnings</th><th>Clang Static Analyzer</th>",
     "<td>0</td><td>0</td><td class='priority1'>0</td><td class='priority2'>0</td><td class='priority3'>0</td><td class='cmplr-error'>0</td><td class='cmplr-warning'>0</td><td class='checker-bug'>0</td>"] = true := by
  decide +kernel
-- WriteViolation
example : hasParts (okOr [] (htmlViolation mockInfo someViolation))
    ["<td>test path</td>", "<td>1:2</td>", "<td>test message</td>"] = true := by decide +kernel
-- WriteFooter
example : hasParts (htmlFooter [] "-test".toList)
    ["Generated with <a href='https://oclint.org'>OCLint v-test"] = true := by decide +kernel
-- WriteCompilerErrorOrWarning
example : hasParts (htmlDiagnostic { someViolation with rule := none } "testlevel".toList)
    ["<td>test path</td>", "<td>1:2</td>", "<td>compiler testlevel</td>",
     "<td class='cmplr-testlevel'>testlevel</td>", "<td>test message</td>"] = true := by decide +kernel
-- WriteCompilerDiagnostics
example : hasParts (htmlDiagnostics "testlevel".toList [diagnosticOne, diagnosticTwo])
    ["<td>test1 path</td><td>1:2</td><td>compiler testlevel</td><td></td><td class='cmplr-testlevel'>testlevel</td><td>test1 message</td>",
     "<td>test2 path</td><td>5:6</td><td>compiler testlevel</td><td></td><td class='cmplr-testlevel'>testlevel</td><td>test2 message</td>"] = true := by
  decide +kernel
-- WriteCheckerBugs
example : hasParts (htmlCheckerBugs [diagnosticOne, diagnosticTwo])
    ["<td>test1 path</td><td>1:2</td><td>clang static analyzer</td><td></td><td class='checker-bug'>checker bug</td><td>test1 message</td>",
     "<td>test2 path</td><td>5:6</td><td>clang static analyzer</td><td></td><td class='checker-bug'>checker bug</td><td>test2 message</td>"] = true := by
  decide +kernel

/-! ## `oclint-reporters/test/PMDReporterTest.cpp` -/

/-- A raw view of a collector. -/
def rawView (c : ResultCollector) : ResultsView := ⟨c, rawAll c⟩

/-- The report of a collector in the PMD format. -/
def pmdText (c : ResultCollector) : Str :=
  okOr [] (pmdReport (fun _ => ⟨"rule name".toList, "rule category".toList, 3⟩) (rawView c))

def pmdSample (rule : Option RuleId) (what : String) : Violation :=
  ⟨rule, (what ++ " path").toList, 1, 2, 3, 4, (what ++ " <message> \"message2\" && 'message3'").toList⟩

def pmdPlace : List String := ["<violation", "begincolumn=\"2\"", "endcolumn=\"4\"", "beginline=\"1\"", "endline=\"3\""]

-- WriteHeader
example : ("<?xml version=\"1.0\" encoding=\"UTF-8\"?>".toList.isPrefixOf (pmdText .empty) &&
    containsStr (pmdText .empty) ("<pmd version=\"oclint-".toList ++ versionText ++ "\">".toList)) = true := by
  decide +kernel
-- WriteFooter
example : "</pmd>".toList.isSuffixOf (pmdText .empty) = true := by decide +kernel
-- WriteCompilerError
example : hasParts (pmdText (ResultCollector.empty.addError (pmdSample none "error")))
    (pmdPlace ++ ["<file name=\"error path\">", "priority=\"1\"", "rule=\"compiler error\"", "ruleset=\"clang\"",
      "error &lt;message&gt; &quot;message2&quot; &amp;&amp; &apos;message3&apos;"]) = true := by decide +kernel
-- WriteCompilerWarning
example : hasParts (pmdText (ResultCollector.empty.addWarning (pmdSample none "warning")))
    (pmdPlace ++ ["<file name=\"warning path\">", "priority=\"2\"", "rule=\"compiler warning\"", "ruleset=\"clang\"",
      "warning &lt;message&gt; &quot;message2&quot; &amp;&amp; &apos;message3&apos;"]) = true := by decide +kernel
-- WriteViolation
example : hasParts (pmdText (ResultCollector.empty.add [pmdSample (some 0) "violation"]))
    (pmdPlace ++ ["<file name=\"violation path\">", "priority=\"5\"", "rule=\"rule name\"", "ruleset=\"rule category\"",
      "violation &lt;message&gt; &quot;message2&quot; &amp;&amp; &apos;message3&apos;"]) = true := by decide +kernel
-- WriteViolationWithoutRule
example : (hasParts (pmdText (ResultCollector.empty.add [pmdSample none "violation"]))
      (pmdPlace ++ ["<file name=\"violation path\">",
        "violation &lt;message&gt; &quot;message2&quot; &amp;&amp; &apos;message3&apos;"]) &&
    !containsStr (pmdText (ResultCollector.empty.add [pmdSample none "violation"])) "priority".toList &&
    !containsStr (pmdText (ResultCollector.empty.add [pmdSample none "violation"])) "rule".toList) = true := by
  decide +kernel
-- WriteCheckerBug
example : hasParts (pmdText (ResultCollector.empty.addCheckerBug (pmdSample none "checker bug")))
    (pmdPlace ++ ["<file name=\"checker bug path\">", "priority=\"2\"", "rule=\"clang static analyzer\"",
      "ruleset=\"clang\"", "checker bug &lt;message&gt; &quot;message2&quot; &amp;&amp; &apos;message3&apos;"]) = true := by
  decide +kernel

/-! ## `oclint-core/test/RuleBaseTest.cpp` -/

-- EmptyName, SingleWordName, CamelCase, SpecialChars
example : identifier [] = [] ∧ identifier "name".toList = "Name".toList ∧
    identifier "some name".toList = "SomeName".toList ∧ identifier "some/name?".toList = "SomeName".toList := by
  decide +kernel

/-! ## `oclint-core/test/RuleConfigurationTest.cpp` -/

def noConfig : Configurations := none
def fooBar : Configurations := noConfig.addConfiguration "foo".toList "bar".toList
def fooOne : Configurations := noConfig.addConfiguration "foo".toList "1".toList
def valueOr {α β : Type} (d : α) (o : Outcome (α × β)) : α :=
  match o with
  | .ok x => x.1
  | _ => d

-- AddConfiguration
example : noConfig.hasKey "foo".toList = false ∧ fooBar.hasKey "foo".toList = true ∧
    valueOr [] (fooBar.valueForKey "foo".toList) = "bar".toList ∧ fooBar.removeAll.hasKey "foo".toList = false := by
  decide +kernel
-- AddTwoConfigurations
example : fooBar.hasKey "bar".toList = false ∧
    (fooBar.addConfiguration "bar".toList "foo".toList).hasKey "bar".toList = true ∧
    valueOr [] ((fooBar.addConfiguration "bar".toList "foo".toList).valueForKey "bar".toList) = "foo".toList := by
  decide +kernel
-- StringValueNoDefault, StringValueHasDefault, StringValueHasKey
example : valueOr "x".toList (noConfig.stringForKey "foo".toList []) = [] ∧
    valueOr [] (noConfig.stringForKey "foo".toList "bar".toList) = "bar".toList ∧
    valueOr [] (fooBar.stringForKey "foo".toList []) = "bar".toList ∧
    valueOr [] (fooBar.stringForKey "foo".toList "rab".toList) = "bar".toList := by decide +kernel
-- IntValueNoDefault, IntValueHasDefault, IntValueHasKey
example : valueOr 7 (noConfig.intForKey "foo".toList 0) = 0 ∧ valueOr 7 (noConfig.intForKey "foo".toList 1) = 1 ∧
    valueOr 7 (fooOne.intForKey "foo".toList 0) = 1 ∧ valueOr 7 (fooOne.intForKey "foo".toList (-1)) = 1 := by
  decide +kernel

/-! ## `oclint-core/test/RuleSetTest.cpp` -/

def noRules : Registry := none
def rulesOne : Registry := noRules.addRule 5
def rulesTwo : Registry := rulesOne.addRule 6

-- EmptyRuleSet, AddRuleToRuleSet, StaticRuleVector
example : noRules.numberOfRules = 0 ∧ okOr (some 9) (noRules.getRuleAtIndex 0) = none ∧
    rulesOne.numberOfRules = 1 ∧ okOr none (rulesOne.getRuleAtIndex 0) = some 5 ∧
    okOr (some 9) (rulesOne.getRuleAtIndex 1) = none ∧
    rulesTwo.numberOfRules = 2 ∧ okOr none (rulesTwo.getRuleAtIndex 1) = some 6 ∧
    okOr (some 9) (rulesTwo.getRuleAtIndex 2) = none := by decide +kernel

/-! ## `oclint-driver/test/RulesetFilterTest.cpp` -/

-- FilteredRulesTest
example : okOr [9] ((RulesetFilter.empty.enableRule "TestRule".toList).filteredRules rulesOne
      fun _ => identifier "test rule".toList) = [5] ∧
    okOr [9] (((RulesetFilter.empty.enableRule "TestRule".toList).disableRule "TestRule".toList).filteredRules rulesOne
      fun _ => identifier "test rule".toList) = [] := by decide +kernel

/-! ## `oclint-core/test/RawResultsTest.cpp` and `UniqueResultsTest.cpp` -/

/-- Rules are told by their numbers; their priorities are 1 and 2, in turn. -/
def mockPriority (r : RuleId) : Int := if r % 2 = 0 then 1 else 2

def at_ (rule : RuleId) (path : String) : Violation := ⟨some rule, path.toList, 1, 2, 3, 4, []⟩

def collected (sets : List ViolationSet) : ResultCollector := sets.foldl ResultCollector.add .empty

/-- What `UniqueResults` answers when it is asked for the first time; the hash makes no difference (C01). -/
def uniqueFirst (c : ResultCollector) (ch : Channel) : List Violation :=
  (uniqueAll (fun _ => ()) c .empty ch).1

-- EmptyResults, NumberOfFiles
example : numberOf (rawAll .empty .violations) = 0 ∧ numberOfFiles .empty = 0 ∧
    numberOfFilesWithViolations .empty = 0 ∧ hasAny (rawAll .empty .errors) = false ∧
    numberOfFiles (collected [[]]) = 1 ∧ numberOfFiles (collected [[], []]) = 2 ∧
    numberOfFilesWithViolations (collected [[], []]) = 0 := by decide +kernel
-- NumberOfFilesWithViolations
example : numberOfFilesWithViolations (collected [[at_ 0 "file/path/0"]]) = 1 ∧
    numberOfFilesWithViolations (collected [[at_ 0 "file/path/0"], []]) = 1 ∧
    numberOfFilesWithViolations
      (collected [[at_ 0 "file/path/0"], [], [at_ 2 "file/path/1", at_ 3 "file/path/1"]]) = 2 ∧
    numberOfFilesWithViolations
      (collected [[at_ 0 "file/path/0"], [], [at_ 2 "file/path/1", at_ 3 "file/path/1"], [],
        [at_ 4 "file/path/1", at_ 5 "file/path/1"]]) = 2 := by decide +kernel
-- NumberOfViolations
example : numberOf (rawAll (collected [[at_ 0 ""]]) .violations) = 1 ∧
    numberOf (rawAll (collected [[at_ 0 ""], []]) .violations) = 1 ∧
    numberOf (rawAll (collected [[at_ 0 ""], [], [at_ 2 "", at_ 3 ""]]) .violations) = 3 := by decide +kernel
-- NumberOfViolationsWithPriority
example : okOr 9 (numberOfViolationsWithPriority mockPriority
      (rawAll (collected [[at_ 0 ""], [], [at_ 2 "", at_ 3 ""]]) .violations) 1) = 2 ∧
    okOr 9 (numberOfViolationsWithPriority mockPriority
      (rawAll (collected [[at_ 0 ""], [], [at_ 2 "", at_ 3 ""]]) .violations) 2) = 1 := by decide +kernel
-- NumberOfViolations1, NumberOfViolations2, NumberOfViolations3 of the unique results
example : numberOf (uniqueFirst (collected [[at_ 0 ""]]) .violations) = 1 ∧
    numberOf (uniqueFirst (collected [[at_ 0 ""], []]) .violations) = 1 ∧
    numberOf (uniqueFirst (collected [[at_ 0 ""], [], [at_ 0 "", at_ 1 ""]]) .violations) = 2 := by decide +kernel
-- NumberOfViolationsWithPriority1, 2, 3 of the unique results
example : okOr 9 (numberOfViolationsWithPriority mockPriority
      (uniqueFirst (collected [[at_ 0 ""], [], [at_ 0 "", at_ 1 ""]]) .violations) 1) = 1 ∧
    okOr 9 (numberOfViolationsWithPriority mockPriority
      (uniqueFirst (collected [[at_ 0 ""], [], [at_ 0 "", at_ 1 ""]]) .violations) 2) = 1 := by decide +kernel

def twiceSame : Violation := ⟨none, "test error path".toList, 1, 2, 0, 0, "test error message".toList⟩

-- CompilerErrors, CompilerWarnings, CheckerBugs, of both
example : rawAll ((ResultCollector.empty.addError twiceSame).addError twiceSame) .errors = [twiceSame, twiceSame] ∧
    rawAll ((ResultCollector.empty.addError twiceSame).addError twiceSame) .violations = [] ∧
    numberOfFiles ((ResultCollector.empty.addError twiceSame).addError twiceSame) = 0 ∧
    uniqueFirst ((ResultCollector.empty.addError twiceSame).addError twiceSame) .errors = [twiceSame] ∧
    rawAll ((ResultCollector.empty.addWarning twiceSame).addWarning twiceSame) .warnings = [twiceSame, twiceSame] ∧
    uniqueFirst ((ResultCollector.empty.addWarning twiceSame).addWarning twiceSame) .warnings = [twiceSame] ∧
    uniqueFirst ((ResultCollector.empty.addWarning twiceSame).addWarning twiceSame) .errors = [] ∧
    rawAll ((ResultCollector.empty.addCheckerBug twiceSame).addCheckerBug twiceSame) .checkerBugs =
      [twiceSame, twiceSame] ∧
    uniqueFirst ((ResultCollector.empty.addCheckerBug twiceSame).addCheckerBug twiceSame) .checkerBugs = [twiceSame] ∧
    uniqueFirst ((ResultCollector.empty.addCheckerBug twiceSame).addCheckerBug twiceSame) .violations = [] := by
  decide +kernel

end Oclint
