import Verif.Model.Results
import Verif.Model.Text
import Verif.Model.Thresholds

/-!
# The report writers

Models `oclint-reporters/reporters/{Text,Xcode,JSON,PMD,XML,HTML}Reporter.cpp` and the strings of
`oclint-core/lib/Constants.cpp`.  The output stream is the text written to it; it is assumed to
accept everything.  `std::endl` is a newline.  The clock (`time`, `gmtime`, `ctime`) is a parameter.
What the script of the HTML report does is modelled separately (`sortTable`).

Simplification: the C++ writes part of the text before undefined behaviour happens; here the
outcome of the whole report is `ub`.
-/

namespace Oclint

/-- `oclint-core/lib/Constants.cpp:5-8`. -/
def versionText : Str := "24.11".toList

/-- `oclint-core/lib/Constants.cpp:10-13`. -/
def homepageText : Str := "https://oclint.org".toList

/-- What the reporters ask a rule (`oclint-core/include/oclint/RuleBase.h`). -/
structure RuleInfo where
  name : Str
  category : Str
  priority : Int
  deriving Repr, DecidableEq

/-- A `Results` object (`oclint-core/include/oclint/Results.h`): the collector for the file counts
and the answers to the four list questions. -/
structure ResultsView where
  collector : ResultCollector
  answer : Channel → List Violation

/-- `std::endl`. -/
def endl : Str := ['\n']

/-- Write one after the other what is written for the elements (range `for` over a vector). -/
def writeEach (f : Violation → Outcome Str) : List Violation → Outcome Str
  | [] => .ok []
  | v :: vs => do
    let a ← f v
    let b ← writeEach f vs
    pure (a ++ b)

/-- `violation.rule->...` for a possibly null rule pointer. -/
def derefRule (info : RuleId → RuleInfo) (v : Violation) : Outcome RuleInfo :=
  match v.rule with
  | none => .ub
  | some r => .ok (info r)

/-- The count for one priority, asked from the results. -/
def priorityTotal (info : RuleId → RuleInfo) (w : ResultsView) (p : Int) : Outcome Nat :=
  numberOfViolationsWithPriority (fun r => (info r).priority) (w.answer .violations) p

/-! ## Text -/

/-- `TextReporter.cpp:64-71`, `writeViolation`. -/
def textViolation (info : RuleId → RuleInfo) (v : Violation) : Outcome Str := do
  let rule ← derefRule info v
  pure (v.path ++ [':'] ++ toStringInt v.startLine ++ [':'] ++ toStringInt v.startColumn
    ++ [':', ' '] ++ rule.name
    ++ [' ', '['] ++ rule.category ++ ['|', 'P'] ++ toStringInt rule.priority ++ [']']
    ++ [' '] ++ v.message)

/-- `TextReporter.cpp:73-80`, `writeViolations`. -/
def textViolations (info : RuleId → RuleInfo) (vs : List Violation) : Outcome Str :=
  writeEach (fun v => do let t ← textViolation info v; pure (t ++ endl)) vs

/-- `TextReporter.cpp:82-86`, `writeCompilerErrorOrWarning`. -/
def textDiagnostic (v : Violation) : Str :=
  v.path ++ [':'] ++ toStringInt v.startLine ++ [':'] ++ toStringInt v.startColumn
    ++ [':', ' '] ++ v.message

/-- The loop of `TextReporter.cpp:92-96`. -/
def textDiagnosticLines : List Violation → Str
  | [] => []
  | v :: vs => textDiagnostic v ++ endl ++ textDiagnosticLines vs

/-- `TextReporter.cpp:88-97`, `writeCompilerDiagnostics`. -/
def textDiagnostics (vs : List Violation) (headerText : Str) : Str :=
  endl ++ headerText ++ endl ++ endl ++ textDiagnosticLines vs

/-- `TextReporter.cpp:21-23`. -/
def textErrorsHeader : Str :=
  "Compiler Errors:\n(please be aware that these errors will prevent OCLint from analyzing this source code)".toList
/-- `TextReporter.cpp:27`. -/
def textWarningsHeader : Str := "Compiler Warnings:".toList
/-- `TextReporter.cpp:32`. -/
def textBugsHeader : Str := "Clang Static Analyzer Results:".toList

/-- `TextReporter.cpp:45-48`, `writeHeader`. -/
def textHeader : Str := "OCLint Report".toList

/-- `TextReporter.cpp:50-53`, `writeFooter`. -/
def textFooter (version : Str) : Str :=
  "[OCLint (".toList ++ homepageText ++ ") v".toList ++ version ++ "]".toList

/-- `TextReporter.cpp:55-62`, `writeSummary`. -/
def textSummary (info : RuleId → RuleInfo) (w : ResultsView) : Outcome Str := do
  let p1 ← priorityTotal info w 1
  let p2 ← priorityTotal info w 2
  let p3 ← priorityTotal info w 3
  pure ("Summary: TotalFiles=".toList ++ toStringInt (numberOfFiles w.collector) ++ [' ']
    ++ "FilesWithViolations=".toList ++ toStringInt (numberOfFilesWithViolations w.collector) ++ [' ']
    ++ "P1=".toList ++ toStringInt p1 ++ [' ']
    ++ "P2=".toList ++ toStringInt p2 ++ [' ']
    ++ "P3=".toList ++ toStringInt p3 ++ [' '])

/-- `TextReporter.cpp:17-43`, `report`. -/
def textReport (info : RuleId → RuleInfo) (w : ResultsView) : Outcome Str := do
  let errors := if hasAny (w.answer .errors) then
    textDiagnostics (w.answer .errors) textErrorsHeader else []
  let warnings := if hasAny (w.answer .warnings) then
    textDiagnostics (w.answer .warnings) textWarningsHeader else []
  let bugs := if hasAny (w.answer .checkerBugs) then
    textDiagnostics (w.answer .checkerBugs) textBugsHeader else []
  let summary ← textSummary info w
  let violations ← textViolations info (w.answer .violations)
  pure (errors ++ warnings ++ bugs
    ++ endl ++ endl ++ textHeader ++ endl ++ endl
    ++ summary ++ endl ++ endl
    ++ violations ++ endl ++ textFooter versionText ++ endl)

/-! ## Xcode -/

/-- `XcodeReporter.cpp:29-36`, `writeViolation`. -/
def xcodeViolation (info : RuleId → RuleInfo) (v : Violation) : Outcome Str := do
  let rule ← derefRule info v
  pure (v.path ++ [':'] ++ toStringInt v.startLine ++ [':'] ++ toStringInt v.startColumn
    ++ ": warning: ".toList ++ rule.name
    ++ [' ', '['] ++ rule.category ++ ['|', 'P'] ++ toStringInt rule.priority ++ [']']
    ++ [' '] ++ v.message)

/-- `XcodeReporter.cpp:16-27`, `report`. -/
def xcodeReport (info : RuleId → RuleInfo) (w : ResultsView) : Outcome Str :=
  writeEach (fun v => do let t ← xcodeViolation info v; pure (t ++ endl)) (w.answer .violations)

/-! ## JSON -/

/-- `JSONReporter.cpp:62-65`, `writeKey`. -/
def jsonKey (key : Str) : Str := ['"'] ++ key ++ ['"', ':']

/-- `JSONReporter.cpp:67-73`, `writeComma`. -/
def jsonComma (isLast : Bool) : Str := if !isLast then [','] else []

/-- `JSONReporter.cpp:75-80`, `writeKeyValue` for strings. -/
def jsonKeyString (key value : Str) (last : Bool) : Str :=
  jsonKey key ++ ['"'] ++ value ++ ['"'] ++ jsonComma last

/-- `JSONReporter.cpp:82-87`, `writeKeyValue` for an `int`. -/
def jsonKeyInt (key : Str) (value : Int) (last : Bool) : Str :=
  jsonKey key ++ toStringInt value ++ jsonComma last

/-- `JSONReporter.cpp:54-60`, `writeHeader`; `now` is narrowed to `int`. -/
def jsonHeader (now : Int) (version : Str) : Str :=
  jsonKeyString "version".toList version false
    ++ jsonKeyString "url".toList homepageText false
    ++ jsonKeyInt "timestamp".toList (toInt32 now) false

/-- `JSONReporter.cpp:95-99`. -/
def jsonEnd (v : Violation) : Str :=
  if v.endLine ≠ 0 ∧ v.endColumn ≠ 0 then
    jsonKeyInt "endLine".toList v.endLine false ++ jsonKeyInt "endColumn".toList v.endColumn false
  else []

/-- `JSONReporter.cpp:100-106`. -/
def jsonRule (info : RuleId → RuleInfo) (v : Violation) : Str :=
  match v.rule with
  | none => []
  | some r =>
    jsonKeyString "rule".toList (info r).name false
      ++ jsonKeyString "category".toList (info r).category false
      ++ jsonKeyInt "priority".toList (info r).priority false

/-- `JSONReporter.cpp:89-109`, `writeViolation`. -/
def jsonViolation (info : RuleId → RuleInfo) (v : Violation) : Str :=
  ['{'] ++ jsonKeyString "path".toList v.path false
    ++ jsonKeyInt "startLine".toList v.startLine false
    ++ jsonKeyInt "startColumn".toList v.startColumn false
    ++ jsonEnd v ++ jsonRule info v
    ++ jsonKeyString "message".toList v.message true ++ ['}']

/-- The index loops of `JSONReporter.cpp:27-35` and `40-48`, from index `index` on. -/
def jsonViolations (info : RuleId → RuleInfo) : Nat → List Violation → Str
  | _, [] => []
  | index, v :: vs =>
    (if index ≠ 0 then [','] else []) ++ jsonViolation info v ++ jsonViolations info (index + 1) vs

/-- `JSONReporter.cpp:111-117`, `writePriority`. -/
def jsonPriority (info : RuleId → RuleInfo) (w : ResultsView) (priority : Int) : Outcome Str := do
  let n ← priorityTotal info w priority
  pure (['{'] ++ jsonKeyInt "priority".toList priority false
    ++ jsonKeyInt "number".toList n true ++ ['}'])

/-- `JSONReporter.cpp:119-133`, `writeSummary`. -/
def jsonSummary (info : RuleId → RuleInfo) (w : ResultsView) : Outcome Str := do
  let p1 ← jsonPriority info w 1
  let p2 ← jsonPriority info w 2
  let p3 ← jsonPriority info w 3
  pure (jsonKey "summary".toList ++ ['{']
    ++ jsonKeyInt "numberOfFiles".toList (numberOfFiles w.collector) false
    ++ jsonKeyInt "numberOfFilesWithViolations".toList (numberOfFilesWithViolations w.collector) false
    ++ jsonKey "numberOfViolationsWithPriority".toList
    ++ ['['] ++ p1 ++ [','] ++ p2 ++ [','] ++ p3 ++ [']', '}', ','])

/-- `JSONReporter.cpp:19-52`, `report`. -/
def jsonReport (info : RuleId → RuleInfo) (now : Int) (w : ResultsView) : Outcome Str := do
  let summary ← jsonSummary info w
  pure (['{'] ++ jsonHeader now versionText ++ summary
    ++ jsonKey "violation".toList ++ ['['] ++ jsonViolations info 0 (w.answer .violations) ++ [']', ',']
    ++ jsonKey "clangStaticAnalyzer".toList ++ ['[']
    ++ jsonViolations info 0 (w.answer .checkerBugs) ++ [']']
    ++ ['}'] ++ endl)

/-! ## PMD -/

/-- `PMDReporter.cpp:12-35`, `PMDRuleDescription`. -/
structure PMDRuleDescription where
  name : Str
  category : Str
  priority : Int
  deriving Repr, DecidableEq

/-- `PMDReporter.cpp:19-22`, the constructor from a rule: `int` arithmetic. -/
def pmdDescription (rule : RuleInfo) : Outcome PMDRuleDescription := do
  let twice ← checkInt32 (2 * rule.priority)
  let p ← checkInt32 (twice - 1)
  pure ⟨rule.name, rule.category, p⟩

/-- ` key="value" ` pieces of `PMDReporter.cpp:31-33` and `86-89`: attribute followed by a space. -/
def pmdAttribute (key value : Str) : Str := key ++ ['=', '"'] ++ value ++ ['"', ' ']

/-- `PMDReporter.cpp:29-34`, `write` of a rule description. -/
def pmdRule (d : PMDRuleDescription) : Str :=
  pmdAttribute "priority".toList (toStringInt d.priority)
    ++ pmdAttribute "rule".toList d.name
    ++ pmdAttribute "ruleset".toList d.category

/-- One character of `PMDReporter.cpp:100-129`. -/
def xmlEscapeChar (c : Char) : Str :=
  if c = '<' then "&lt;".toList
  else if c = '>' then "&gt;".toList
  else if c = '"' then "&quot;".toList
  else if c = '&' then "&amp;".toList
  else if c = '\'' then "&apos;".toList
  else [c]

/-- `PMDReporter.cpp:100-129`, `xmlEscape`: appends to `output`. -/
def xmlEscapeLoop : Str → Str → Str
  | output, [] => output
  | output, c :: cs => xmlEscapeLoop (output ++ xmlEscapeChar c) cs

/-- `PMDReporter.cpp:100-129`, `xmlEscape`. -/
def xmlEscape (data : Str) : Str := xmlEscapeLoop [] data

/-- `PMDReporter.cpp:80-98`, `writeViolation` with a description. -/
def pmdWrite (v : Violation) (d : Option PMDRuleDescription) : Str :=
  "<file name=\"".toList ++ v.path ++ "\">".toList ++ endl
    ++ "<violation ".toList
    ++ pmdAttribute "begincolumn".toList (toStringInt v.startColumn)
    ++ pmdAttribute "endcolumn".toList (toStringInt v.endColumn)
    ++ pmdAttribute "beginline".toList (toStringInt v.startLine)
    ++ pmdAttribute "endline".toList (toStringInt v.endLine)
    ++ (match d with | some d => pmdRule d | none => [])
    ++ ">".toList ++ endl
    ++ xmlEscape v.message ++ endl
    ++ "</violation>".toList ++ endl
    ++ "</file>".toList ++ endl

/-- `PMDReporter.cpp:48-52`, `writeCompilerError`. -/
def pmdError (v : Violation) : Str :=
  pmdWrite v (some ⟨"compiler error".toList, "clang".toList, 1⟩)

/-- `PMDReporter.cpp:54-58`, `writeCompilerWarning`. -/
def pmdWarning (v : Violation) : Str :=
  pmdWrite v (some ⟨"compiler warning".toList, "clang".toList, 2⟩)

/-- `PMDReporter.cpp:60-72`, `writeViolation`. -/
def pmdViolation (info : RuleId → RuleInfo) (v : Violation) : Outcome Str :=
  match v.rule with
  | none => .ok (pmdWrite v none)
  | some r => do
    let d ← pmdDescription (info r)
    pure (pmdWrite v (some d))

/-- `PMDReporter.cpp:74-78`, `writeCheckerBug`. -/
def pmdCheckerBug (v : Violation) : Str :=
  pmdWrite v (some ⟨"clang static analyzer".toList, "clang".toList, 2⟩)

/-- `PMDReporter.cpp:37-41`, `writeHeader`. -/
def pmdHeader (version : Str) : Str :=
  "<?xml version=\"1.0\" encoding=\"UTF-8\"?>".toList ++ endl
    ++ "<pmd version=\"oclint-".toList ++ version ++ "\">".toList

/-- `PMDReporter.cpp:43-46`, `writeFooter`. -/
def pmdFooter : Str := "</pmd>".toList

/-- `PMDReporter.cpp:137-161`, `report`. -/
def pmdReport (info : RuleId → RuleInfo) (w : ResultsView) : Outcome Str := do
  let errors ← writeEach (fun v => .ok (pmdError v ++ endl)) (w.answer .errors)
  let warnings ← writeEach (fun v => .ok (pmdWarning v ++ endl)) (w.answer .warnings)
  let violations ← writeEach (fun v => do let t ← pmdViolation info v; pure (t ++ endl))
    (w.answer .violations)
  let bugs ← writeEach (fun v => .ok (pmdCheckerBug v ++ endl)) (w.answer .checkerBugs)
  pure (pmdHeader versionText ++ errors ++ warnings ++ violations ++ bugs ++ pmdFooter)

/-! ## XML -/

/-- `struct tm`, as returned by `gmtime`. -/
structure Tm where
  year : Int
  mon : Int
  mday : Int
  hour : Int
  min : Int
  sec : Int
  deriving Repr, DecidableEq

/-- `printf` conversion `%0<width>i`: zero padding after the sign. -/
def formatPadded (width : Nat) (z : Int) : Str :=
  let digits := showNat z.natAbs []
  if z < 0 then '-' :: (List.replicate (width - 1 - digits.length) '0' ++ digits)
  else List.replicate (width - digits.length) '0' ++ digits

/-- `XMLReporter.cpp:48-63`, `writeDatetime`; `gmtime` may return null, `snprintf` keeps at most 27
characters. -/
def xmlDatetime (tmNow : Option Tm) : Outcome Str :=
  match tmNow with
  | none => .ub
  | some tm => do
    let year ← checkInt32 (tm.year + 1900)
    let charNow := (formatPadded 4 year ++ ['-'] ++ formatPadded 2 tm.mon ++ ['-']
      ++ formatPadded 2 tm.mday ++ ['T'] ++ formatPadded 2 tm.hour ++ [':']
      ++ formatPadded 2 tm.min ++ [':'] ++ formatPadded 2 tm.sec ++ ['Z']).take 27
    pure ("<datetime>".toList ++ charNow ++ "</datetime>".toList)

/-- `XMLReporter.cpp:92-96`, `writeViolationAttribute`. -/
def xmlAttribute (key value : Str) : Str := [' '] ++ key ++ ['=', '"'] ++ value ++ ['"']

/-- `XMLReporter.cpp:76-80`. -/
def xmlEnd (v : Violation) : Str :=
  if v.endLine ≠ 0 ∧ v.endColumn ≠ 0 then
    xmlAttribute "endline".toList (toStringInt v.endLine)
      ++ xmlAttribute "endcolumn".toList (toStringInt v.endColumn)
  else []

/-- `XMLReporter.cpp:81-87`. -/
def xmlRule (info : RuleId → RuleInfo) (v : Violation) : Str :=
  match v.rule with
  | none => []
  | some r =>
    xmlAttribute "rule".toList (info r).name
      ++ xmlAttribute "category".toList (info r).category
      ++ xmlAttribute "priority".toList (toStringInt (info r).priority)

/-- `XMLReporter.cpp:70-90`, `writeViolation`. -/
def xmlViolation (info : RuleId → RuleInfo) (v : Violation) : Str :=
  "<violation".toList
    ++ xmlAttribute "path".toList v.path
    ++ xmlAttribute "startline".toList (toStringInt v.startLine)
    ++ xmlAttribute "startcolumn".toList (toStringInt v.startColumn)
    ++ xmlEnd v ++ xmlRule info v
    ++ xmlAttribute "message".toList v.message
    ++ "></violation>".toList

/-- The loops of `XMLReporter.cpp:26-29` and `32-35`. -/
def xmlViolations (info : RuleId → RuleInfo) : List Violation → Str
  | [] => []
  | v :: vs => xmlViolation info v ++ xmlViolations info vs

/-- `XMLReporter.cpp:112-116`, `writeSummaryProperty`. -/
def xmlProperty (key : Str) (value : Int) : Str :=
  "<property name=\"".toList ++ key ++ "\">".toList ++ toStringInt value ++ "</property>".toList

/-- `XMLReporter.cpp:98-110`, `writeSummary`. -/
def xmlSummary (info : RuleId → RuleInfo) (w : ResultsView) : Outcome Str := do
  let p1 ← priorityTotal info w 1
  let p2 ← priorityTotal info w 2
  let p3 ← priorityTotal info w 3
  pure ("<summary>".toList
    ++ xmlProperty "number of files".toList (numberOfFiles w.collector)
    ++ xmlProperty "files with violations".toList (numberOfFilesWithViolations w.collector)
    ++ xmlProperty "number of priority 1 violations".toList p1
    ++ xmlProperty "number of priority 2 violations".toList p2
    ++ xmlProperty "number of priority 3 violations".toList p3
    ++ "</summary>".toList)

/-- `XMLReporter.cpp:41-46`, `writeHeader`. -/
def xmlHeader (version : Str) : Str :=
  "<?xml version=\"1.0\" encoding=\"UTF-8\" ?>".toList
    ++ "<oclint version=\"".toList ++ version ++ "\" url=\"".toList ++ homepageText ++ "\">".toList

/-- `XMLReporter.cpp:20-39`, `report`. -/
def xmlReport (info : RuleId → RuleInfo) (tmNow : Option Tm) (w : ResultsView) : Outcome Str := do
  let datetime ← xmlDatetime tmNow
  let summary ← xmlSummary info w
  pure (xmlHeader versionText ++ datetime ++ summary
    ++ "<violations>".toList ++ xmlViolations info (w.answer .violations) ++ "</violations>".toList
    ++ "<clangstaticanalyzer>".toList ++ xmlViolations info (w.answer .checkerBugs)
    ++ "</clangstaticanalyzer>".toList
    ++ "</oclint>".toList ++ endl)

/-! ## HTML -/

/-- `<td>text</td>`. -/
def htmlCell (text : Str) : Str := "<td>".toList ++ text ++ "</td>".toList

/-- `<td class='cls'>text</td>`. -/
def htmlClassCell (cls text : Str) : Str :=
  "<td class='".toList ++ cls ++ "'>".toList ++ text ++ "</td>".toList

/-- `startLine:startColumn`. -/
def htmlLocation (v : Violation) : Str :=
  toStringInt v.startLine ++ [':'] ++ toStringInt v.startColumn

/-- `HTMLReporter.cpp:69-79`, `writeViolation`. -/
def htmlViolation (info : RuleId → RuleInfo) (v : Violation) : Outcome Str := do
  let rule ← derefRule info v
  pure ("<tr>".toList ++ htmlCell v.path ++ htmlCell (htmlLocation v)
    ++ htmlCell rule.name ++ htmlCell rule.category
    ++ htmlClassCell ("priority".toList ++ toStringInt rule.priority) (toStringInt rule.priority)
    ++ htmlCell v.message ++ "</tr>".toList)

/-- `HTMLReporter.cpp:81-88`, `writeCompilerErrorOrWarning`. -/
def htmlDiagnostic (v : Violation) (level : Str) : Str :=
  "<tr>".toList ++ htmlCell v.path ++ htmlCell (htmlLocation v)
    ++ htmlCell ("compiler ".toList ++ level) ++ htmlCell []
    ++ htmlClassCell ("cmplr-".toList ++ level) level
    ++ htmlCell v.message ++ "</tr>".toList

/-- `HTMLReporter.cpp:90-97`, `writeCompilerDiagnostics`. -/
def htmlDiagnostics (level : Str) : List Violation → Str
  | [] => []
  | v :: vs => htmlDiagnostic v level ++ htmlDiagnostics level vs

/-- Loop body of `HTMLReporter.cpp:99-108`. -/
def htmlCheckerBug (v : Violation) : Str :=
  "<tr>".toList ++ htmlCell v.path ++ htmlCell (htmlLocation v)
    ++ htmlCell "clang static analyzer".toList ++ htmlCell []
    ++ htmlClassCell "checker-bug".toList "checker bug".toList
    ++ htmlCell v.message ++ "</tr>".toList

/-- `HTMLReporter.cpp:99-108`, `writeCheckerBugs`. -/
def htmlCheckerBugs : List Violation → Str
  | [] => []
  | v :: vs => htmlCheckerBug v ++ htmlCheckerBugs vs

/-- `HTMLReporter.cpp:112-115`: the head of the summary table. -/
def htmlSummaryHead : Str :=
  "<thead><tr><th>Total Files</th><th>Files with Violations</th><th>Priority 1</th><th>Priority 2</th><th>Priority 3</th><th>Compiler Errors</th><th>Compiler Warnings</th><th>Clang Static Analyzer</th></tr></thead>".toList

/-- `HTMLReporter.cpp:110-124`, `writeSummaryTable`. -/
def htmlSummary (info : RuleId → RuleInfo) (w : ResultsView) : Outcome Str := do
  let p1 ← priorityTotal info w 1
  let p2 ← priorityTotal info w 2
  let p3 ← priorityTotal info w 3
  pure ("<table>".toList ++ htmlSummaryHead ++ "<tbody>".toList ++ "<tr>".toList
    ++ htmlCell (toStringInt (numberOfFiles w.collector))
    ++ htmlCell (toStringInt (numberOfFilesWithViolations w.collector))
    ++ htmlClassCell "priority1".toList (toStringInt p1)
    ++ htmlClassCell "priority2".toList (toStringInt p2)
    ++ htmlClassCell "priority3".toList (toStringInt p3)
    ++ htmlClassCell "cmplr-error".toList (toStringInt (w.answer .errors).length)
    ++ htmlClassCell "cmplr-warning".toList (toStringInt (w.answer .warnings).length)
    ++ htmlClassCell "checker-bug".toList (toStringInt (w.answer .checkerBugs).length)
    ++ "</tr>".toList ++ "</tbody>".toList ++ "</table>".toList)

/-- `HTMLReporter.cpp:37-52`: the rows of the details table. -/
def htmlRows (info : RuleId → RuleInfo) (w : ResultsView) : Outcome Str := do
  let violations ← writeEach (htmlViolation info) (w.answer .violations)
  let errors := if hasAny (w.answer .errors) then
    htmlDiagnostics "error".toList (w.answer .errors) else []
  let warnings := if hasAny (w.answer .warnings) then
    htmlDiagnostics "warning".toList (w.answer .warnings) else []
  let bugs := if hasAny (w.answer .checkerBugs) then htmlCheckerBugs (w.answer .checkerBugs) else []
  pure (violations ++ errors ++ warnings ++ bugs)

/-- `HTMLReporter.cpp:29-36`: opening of the details table. -/
def htmlDetailsHead : Str :=
  "<table id=\"violations-table\"><thead><tr><th onclick=\"sortTable(0)\" class=\"sortable\">File</th><th onclick=\"sortTable(1)\" class=\"sortable\">Location</th><th onclick=\"sortTable(2)\" class=\"sortable\">Rule Name</th><th onclick=\"sortTable(3)\" class=\"sortable\">Rule Category</th><th onclick=\"sortTable(4)\" class=\"sortable\">Priority</th><th onclick=\"sortTable(5)\" class=\"sortable\">Message</th></tr></thead><tbody>".toList

/-- `HTMLReporter.cpp:61-67`, `writeFooter`; `ctimeText` is what `ctime` returns (ends in a
newline). -/
def htmlFooter (ctimeText version : Str) : Str :=
  "<p>".toList ++ ctimeText ++ "| Generated with <a href='".toList ++ homepageText ++ "'>".toList
    ++ "OCLint v".toList ++ version ++ "</a>.</p>".toList

/-- `HTMLReporter.cpp:131-144`: the style sheet, one text per source line.  A backslash at the end of a
line inside a literal joins it with the next one, so there are blanks and no newline between them. -/
def htmlStyle : Str :=
  List.flatten [
    chars! "* { color: #4A4A4A ; }                                                  ",
    chars! ".sortable { cursor: pointer; }                                                          ",
    chars! ".priority1, .priority2, .priority3, .cmplr-error,                                       ",
    chars! "    .cmplr-warning, .checker-bug { font-weight: bold; text-align: center; }             ",
    chars! ".priority1, .priority2, .priority3 { color: #4A4A4A; }                                  ",
    chars! ".priority1 { background-color: #FFCC96; }                                               ",
    chars! ".priority2 { background-color: #FFFFD5; }                                               ",
    chars! ".priority3 { background-color: #75B3DA; }                                               ",
    chars! ".cmplr-error, .cmplr-warning { background-color: #ED686A; color: #FFFFD5; }             ",
    chars! ".checker-bug { background-color: #75B3DA; color: #4A4A4A; }                             ",
    chars! "table { border: 1px solid #2B2B2B; border-collapse: collapse; }                         ",
    chars! "td, th { border: 1px solid #2B2B2B; padding: 4px 10px 4px 10px; }                       ",
    chars! "th { border-bottom: 1px solid #2B2B2B; text-align: center; background-color: #eaeaea; } ",
    chars! "hr { border: none; border-top: 1px solid #EAEAEA; } "]

/-- `HTMLReporter.cpp:147-176`: the script, one text per source line, joined in the same way. -/
def htmlScript : Str :=
  List.flatten [
    chars! "function sortTable(n) {                                                 ",
    chars! "  var table, rows, switching, i, x, y, shouldSwitch, dir, switchcount = 0;              ",
    chars! "  table = document.getElementById(\"violations-table\");                                ",
    chars! "  switching = true;                                                                     ",
    chars! "  dir = \"asc\";                                                                        ",
    chars! "  while (switching) {                                                                   ",
    chars! "    switching = false;                                                                  ",
    chars! "    rows = table.rows;                                                                  ",
    chars! "    for (i = 1; i < (rows.length - 1); i++) {                                           ",
    chars! "      shouldSwitch = false;                                                             ",
    chars! "      x = rows[i].getElementsByTagName(\"TD\")[n];                                      ",
    chars! "      y = rows[i + 1].getElementsByTagName(\"TD\")[n];                                  ",
    chars! "      if ((dir == \"asc\" && x.innerHTML.toLowerCase() > y.innerHTML.toLowerCase()) ||  ",
    chars! "         (dir == \"desc\" && x.innerHTML.toLowerCase() < y.innerHTML.toLowerCase())) {  ",
    chars! "          shouldSwitch = true;                                                          ",
    chars! "          break;                                                                        ",
    chars! "      }                                                                                 ",
    chars! "    }                                                                                   ",
    chars! "    if (shouldSwitch) {                                                                 ",
    chars! "      rows[i].parentNode.insertBefore(rows[i + 1], rows[i]);                            ",
    chars! "      switching = true;                                                                 ",
    chars! "      switchcount++;                                                                    ",
    chars! "    } else {                                                                            ",
    chars! "      if (switchcount == 0 && dir == \"asc\") {                                         ",
    chars! "        dir = \"desc\";                                                                 ",
    chars! "        switching = true;                                                               ",
    chars! "      }                                                                                 ",
    chars! "    }                                                                                   ",
    chars! "  }                                                                                     ",
    chars! "}"]

/-- `HTMLReporter.cpp:126-179`, `writeHead`. -/
def htmlHead : Str :=
  "<head>".toList ++ "<title>OCLint Report</title>".toList
    ++ "<style type='text/css'>".toList ++ htmlStyle ++ "</style>".toList
    ++ "<script>".toList ++ htmlScript ++ "</script>".toList ++ "</head>".toList

/-- `HTMLReporter.cpp:19-59`, `report`. -/
def htmlReport (info : RuleId → RuleInfo) (ctimeText : Str) (w : ResultsView) : Outcome Str := do
  let summary ← htmlSummary info w
  let rows ← htmlRows info w
  pure ("<!DOCTYPE html>".toList ++ "<html>".toList ++ htmlHead ++ "<body>".toList
    ++ "<h1>OCLint Report</h1>".toList ++ "<h2>Summary</h2>".toList ++ summary
    ++ "<h2>Details</h2>".toList ++ htmlDetailsHead ++ rows
    ++ "</tbody></table>".toList ++ "<hr />".toList ++ htmlFooter ctimeText versionText
    ++ "</body>".toList ++ "</html>".toList ++ endl)

end Oclint
