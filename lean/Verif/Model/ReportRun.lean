import Verif.Model.Reporters

/-!
# The reporters that come with the program

Models what the report plugins of `oclint-reporters/reporters` are to the main program: a type name
and a function from the results to a text.  The functions themselves are in `Verif.Model.Reporters`.
-/

namespace Oclint

/-- The plugins of `oclint-reporters/reporters` (`oclint-reporters/reporters/CMakeLists.txt`). -/
inductive ReporterPlugin where
  | html
  | json
  | pmd
  | text
  | xcode
  | xml
  deriving Repr, DecidableEq

/-- `name()`: `HTMLReporter.cpp:14-17`, `JSONReporter.cpp:14-17`, `PMDReporter.cpp:132-135`,
`TextReporter.cpp:12-15`, `XcodeReporter.cpp:11-14`, `XMLReporter.cpp:15-18`. -/
def ReporterPlugin.typeName : ReporterPlugin → Str
  | .html => "html".toList
  | .json => "json".toList
  | .pmd => "pmd".toList
  | .text => "text".toList
  | .xcode => "xcode".toList
  | .xml => "xml".toList

/-- What the reporters learn from the clock: `time(nullptr)`, `gmtime` and `ctime` of it. -/
structure Clock where
  now : Int
  utc : Option Tm
  text : Str

/-- `report(Results *, std::ostream &)`: `HTMLReporter.cpp:19-59`, `JSONReporter.cpp:19-52`,
`PMDReporter.cpp:137-161`, `TextReporter.cpp:17-43`, `XcodeReporter.cpp:16-27`,
`XMLReporter.cpp:20-39`. -/
def ReporterPlugin.report (info : RuleId → RuleInfo) (clock : Clock) :
    ReporterPlugin → ResultsView → Outcome Str
  | .html, w => htmlReport info clock.text w
  | .json, w => jsonReport info clock.now w
  | .pmd, w => pmdReport info w
  | .text, w => textReport info w
  | .xcode, w => xcodeReport info w
  | .xml, w => xmlReport info clock.utc w

end Oclint
