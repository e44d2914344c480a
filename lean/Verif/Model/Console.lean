import Verif.Model.Main
import Verif.Model.Reporters
import Verif.Model.Verbose

/-!
# What the main program writes

Models `oclint-driver/main.cpp`, `rules_dlfcn_port.cpp` and `reporters_dlfcn_port.cpp` once more, now
with everything that is written to standard output, standard error and the report file.  Writing does
not fail here; see `WriteFailure`.  Simplifications: the rules themselves and clang's front end write nothing; this is the
release build.
-/

namespace Oclint

/-- Everything written so far.  `log` goes to standard output, too, but through the separate buffer of
`llvm::outs()`; how it mixes with `out` is not modelled.  `files` are the files opened for reports. -/
structure Console where
  out : Str
  err : Str
  log : Str
  files : List (Str × Str)
  deriving Repr, DecidableEq

def Console.empty : Console := ⟨[], [], [], []⟩

/-- The words of others. -/
structure Voices (U : Type) where
  /-- what clang's parser says about a command line it does not accept -/
  parserError : Str
  /-- what LLVM's YAML reader says about the configuration files, on standard error -/
  configErrors : Str
  /-- `dlerror()` after a library did not open -/
  dlerror : Str → Str
  /-- `RuleCarrier::getMainFilePath` (`RuleCarrier.cpp:24-29`) -/
  mainFile : U → Str
  /-- what a reporter writes before it returns or throws -/
  text : Str → Answers → Str

/-- `main.cpp:85-88`, `printErrorLine`. -/
def printErrorLine (c : Console) (errorMessage : Str) : Console :=
  { c with err := c.err ++ ['\n'] ++ "oclint: error: ".toList ++ errorMessage ++ ['\n'] }

/-- `main.cpp:75-83`, `listRules`. -/
def listRules (c : Console) (filter : RulesetFilter) (reg : Registry) (identifierOf : RuleId → Str) :
    Outcome Console := do
  let names ← filter.filteredRuleNames reg identifierOf
  let c := { c with out := c.out ++ "Enabled rules:".toList ++ ['\n'] }
  let c := names.foldl (fun c n => { c with out := c.out ++ "- ".toList ++ n ++ ['\n'] }) c
  pure { c with out := c.out ++ ['\n'] }

/-- `main.cpp:90-99`, `printViolationsExceedThresholdError`. -/
def printExceedError (c : Console) (priorityOf : RuleId → Int) (st : OptionState)
    (results : Answers) : Outcome Console := do
  let c := printErrorLine c "violations exceed threshold".toList
  let n1 ← numberOfViolationsWithPriority priorityOf (results .violations) 1
  let c := { c with err := c.err ++ "P1=".toList ++ toStringInt n1
    ++ "[".toList ++ toStringInt st.argMaxP1.value ++ "] ".toList }
  let n2 ← numberOfViolationsWithPriority priorityOf (results .violations) 2
  let c := { c with err := c.err ++ "P2=".toList ++ toStringInt n2
    ++ "[".toList ++ toStringInt st.argMaxP2.value ++ "] ".toList }
  let n3 ← numberOfViolationsWithPriority priorityOf (results .violations) 3
  pure { c with err := c.err ++ "P3=".toList ++ toStringInt n3
    ++ "[".toList ++ toStringInt st.argMaxP3.value ++ "] ".toList ++ ['\n'] }

variable {U σ κ : Type}

/-- What `rules_dlfcn_port.cpp:24-26` does about a library that does not open. -/
def libraryError {α : Type} (dlerror : Str → Str) (path : Str) : Loud α :=
  ⟨dlerror path ++ ['\n'], .throws ("cannot open dynamic library: ".toList ++ path)⟩

/-- The `readdir` loop of `rules_dlfcn_port.cpp:15-28`. -/
def loudRuleEntries (dlerror : Str → Str) (lib : Str → Option (List RuleId)) (dir : Str) :
    LoaderState → List Str → Loud LoaderState
  | st, [] => pure st
  | st, name :: rest =>
    if isDotEntry name then loudRuleEntries dlerror lib dir st rest
    else
      let rulePath := dir ++ "/".toList ++ name
      match openRuleLibrary lib st rulePath with
      | none => libraryError dlerror rulePath
      | some st' => loudRuleEntries dlerror lib dir st' rest

/-- `rules_dlfcn_port.cpp:9-31`, `dynamicLoadRules`. -/
def loudLoadRules (dlerror : Str → Str) (ls : Listing) (lib : Str → Option (List RuleId))
    (st : LoaderState) (dir : Str) : Loud LoaderState :=
  match ls dir with
  | none => pure st
  | some names => loudRuleEntries dlerror lib dir st names

/-- `main.cpp:36-42`, `consumeArgRulesPath`. -/
def loudRulesPath (dlerror : Str → Str) (ls : Listing) (lib : Str → Option (List RuleId)) :
    LoaderState → List Str → Loud LoaderState
  | st, [] => pure st
  | st, d :: ds => do
    let st' ← loudLoadRules dlerror ls lib st d
    loudRulesPath dlerror ls lib st' ds

/-- The `readdir` loop of `reporters_dlfcn_port.cpp:20-42`. -/
def loudReporterEntries (dlerror : Str → Str) (lib : Str → Option ReporterLibrary)
    (reportType dir : Str) : List Str → Loud (Option Str)
  | [] => pure none
  | name :: rest =>
    if isDotEntry name then loudReporterEntries dlerror lib reportType dir rest
    else
      let path := dir ++ "/".toList ++ name
      match lib path with
      | none => libraryError dlerror path
      | some none => .quiet .ub
      | some (some reporterName) =>
        if reporterName = reportType then pure (some path)
        else loudReporterEntries dlerror lib reportType dir rest

/-- `reporters_dlfcn_port.cpp:45-49`. -/
def selectedOrThrow (reportType : Str) (selected : Option Str) : Loud Str :=
  match selected with
  | none => .quiet (.throws ("cannot find dynamic library for report type: ".toList ++ reportType))
  | some path => pure path

/-- `reporters_dlfcn_port.cpp:12-50`, `loadReporter`. -/
def loudReporter (dlerror : Str → Str) (ls : Listing) (lib : Str → Option ReporterLibrary)
    (reportType dir : Str) : Loud Str :=
  match ls dir with
  | none => selectedOrThrow reportType none
  | some names => do
    let selected ← loudReporterEntries dlerror lib reportType dir names
    selectedOrThrow reportType selected

/-- Writing to standard error. -/
def Console.toErr (c : Console) (s : Str) : Console := { c with err := c.err ++ s }

/-- `main.cpp:131-141`: the reporter. -/
def reporterConsole (m : Machine U σ κ) (v : Voices U) (st : OptionState) (registry : Registry)
    (c : Console) : Outcome (Console × (ExitCode ⊕ (Registry × Str))) :=
  let r := loudReporter v.dlerror m.listing m.reporterLibrary st.argReportType.value
    (reporterPath m.env)
  let c := c.toErr r.said
  match r.result with
  | .ub => .ub
  | .throws w => .ok (printErrorLine c w, .inl .REPORTER_NOT_FOUND)
  | .ok reporter => .ok (c, .inr (registry, reporter))

/-- `main.cpp:115-142`, `prepare`. -/
def prepareConsole (m : Machine U σ κ) (v : Voices U) (st : OptionState) (c : Console) :
    Outcome (Console × (ExitCode ⊕ (Registry × Str))) :=
  let r := loudRulesPath v.dlerror m.listing m.ruleLibrary ⟨[], none⟩ (rulesPath m.env st)
  let c := c.toErr r.said
  match r.result with
  | .ub => .ub
  | .throws w => .ok (printErrorLine c w, .inl .RULE_NOT_FOUND)
  | .ok ld =>
    if ld.registry.numberOfRules ≤ 0 then
      .ok (printErrorLine c "no rule loaded".toList, .inl .RULE_NOT_FOUND)
    else reporterConsole m v st ld.registry c

/-- `main.cpp:153-167`, `handleExit`. -/
def handleExitConsole (priorityOf : RuleId → Int) (st : OptionState) (results : Answers)
    (c : Console) : Outcome (Console × ExitCode) :=
  if hasAny (results .errors) then .ok (c, .COMPILATION_ERRORS)
  else do
    let exceed ← exceedThreshold priorityOf st results
    if exceed then do
      let c ← printExceedError c priorityOf st results
      pure (c, .VIOLATIONS_EXCEED_THRESHOLD)
    else pure (c, .SUCCESS)

/-- The report goes to the stream `outStream` gave (`none` is standard output). -/
def writeReport (c : Console) (dest : Option Str) (text : Str) : Console :=
  match dest with
  | none => { c with out := c.out ++ text }
  | some file => { c with files := c.files ++ [(file, text)] }

/-- `main.cpp:206-216`: the reporting `try` block with its handler. -/
def reportConsole (m : Machine U σ κ) (text : Str → Answers → Str) (st : OptionState) (reporter : Str)
    (results : Answers) (c : Console) : Outcome (Console × Option ExitCode) :=
  match outStream m.canOpen st with
  | .ub => .ub
  | .throws w => .ok (printErrorLine c w, some .ERROR_WHILE_REPORTING)
  | .ok dest =>
    let c := writeReport c dest (text reporter results)
    match m.report reporter results with
    | .ub => .ub
    | .throws w => .ok (printErrorLine c w, some .ERROR_WHILE_REPORTING)
    | .ok () => .ok (c, none)

/-- `main.cpp:187-190`. -/
def listIfAsked (m : Machine U σ κ) (st : OptionState) (asked : Bool) (registry : Registry)
    (c : Console) : Outcome Console :=
  if asked then listRules c st.filter registry m.ruleIdentifier else .ok c

/-- `main.cpp:204-218`: `main` after the analysis. -/
def finishConsole [DecidableEq κ] (m : Machine U σ κ) (text : Str → Answers → Str) (st : OptionState)
    (reporter : Str) (collector : ResultCollector) (c : Console) : Outcome (Console × ExitCode) :=
  let results := getResults m.hash st.argDuplications.value collector
  match reportConsole m text st reporter results c with
  | .ub => .ub
  | .throws w => .throws w
  | .ok (c, some status) => .ok (c, status)
  | .ok (c, none) => handleExitConsole m.priorityOf st results c

/-- `main.cpp:192-218`: `main` after the list of rules. -/
def analysisConsole [DecidableEq κ] (m : Machine U σ κ) (v : Voices U) (st : OptionState)
    (verbose : Bool) (rules : List RuleId) (reporter : Str) (c : Console) :
    Outcome (Console × ExitCode) :=
  let r := verboseRun verbose v.mainFile m.toolchain m.mainExecutable st.argGlobalAnalysis.value
    st.argClangChecker.value ⟨rules, m.takeoff⟩ ⟨m.env.cwd, ResultCollector.empty, m.initialRules⟩
    m.db m.sources
  let c := { c with err := c.err ++ r.1, log := c.log ++ r.2.said }
  match r.2.result with
  | .ub => .ub
  | .throws w => .ok (printErrorLine c w, .ERROR_WHILE_PROCESSING)
  | .ok ds => finishConsole m v.text st reporter ds.collector c

/-- `main.cpp:187-218`: `main` after `prepare`. -/
def runConsole [DecidableEq κ] (m : Machine U σ κ) (v : Voices U) (st : OptionState)
    (cli : CommandLine) (registry : Registry) (reporter : Str) (c : Console) :
    Outcome (Console × ExitCode) := do
  let c ← listIfAsked m st cli.listEnabledRules registry c
  let rules ← st.filter.filteredRules registry m.ruleIdentifier
  analysisConsole m v st cli.verbose rules reporter c

/-- `main.cpp:169-219`, `main`. -/
def mainConsole [DecidableEq κ] (m : Machine U σ κ) (v : Voices U) (cli : Option CommandLine) :
    Outcome (Console × ExitCode) :=
  match cli with
  | none => .ok (Console.empty.toErr v.parserError, .COMMON_OPTIONS_PARSER_ERRORS)
  | some cli => do
    let st ← processOptions m.env cli
    match prepareConsole m v st (Console.empty.toErr v.configErrors) with
    | .ub => .ub
    | .throws w => .throws w
    | .ok (c, .inl status) => .ok (c, status)
    | .ok (c, .inr (registry, reporter)) => runConsole m v st cli registry reporter c

end Oclint
