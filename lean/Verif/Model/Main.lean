import Verif.Model.Driver
import Verif.Model.Loader
import Verif.Model.Options

/-!
# The main program

Models `oclint-driver/main.cpp`.
-/

namespace Oclint

/-- `oclint-driver/include/oclint/ExitCode.h:4-14`, in declaration order. -/
inductive ExitCode where
  | SUCCESS | RULE_NOT_FOUND | REPORTER_NOT_FOUND | ERROR_WHILE_PROCESSING | ERROR_WHILE_REPORTING
  | VIOLATIONS_EXCEED_THRESHOLD | COMPILATION_ERRORS | COMMON_OPTIONS_PARSER_ERRORS
  deriving Repr, DecidableEq

/-- The integer value of the enumerator. -/
def ExitCode.toNat : ExitCode → Nat
  | .SUCCESS => 0
  | .RULE_NOT_FOUND => 1
  | .REPORTER_NOT_FOUND => 2
  | .ERROR_WHILE_PROCESSING => 3
  | .ERROR_WHILE_REPORTING => 4
  | .VIOLATIONS_EXCEED_THRESHOLD => 5
  | .COMPILATION_ERRORS => 6
  | .COMMON_OPTIONS_PARSER_ERRORS => 7

/-- The answers of a `Results` object. -/
abbrev Answers := Channel → List Violation

/-- `main.cpp:101-113`, `getResults`.  A de-duplicating view gives the same answers whatever was
asked before (`C03_questions_are_pure`), so its memo fields are not threaded through `main`. -/
def getResults {κ : Type} [DecidableEq κ] (h : Violation → κ) (allowDuplicates : Bool)
    (c : ResultCollector) : Answers :=
  if allowDuplicates then rawAll c else fun ch => (uniqueAll h c UniqueMemo.empty ch).1

/-- `main.cpp:44-49`, `numberOfViolationsExceedThreshold`. -/
def exceedThreshold (priorityOf : RuleId → Int) (st : OptionState) (results : Answers) :
    Outcome Bool := do
  let n1 ← numberOfViolationsWithPriority priorityOf (results .violations) 1
  if (n1 : Int) > st.argMaxP1.value then pure true
  else
    let n2 ← numberOfViolationsWithPriority priorityOf (results .violations) 2
    if (n2 : Int) > st.argMaxP2.value then pure true
    else
      let n3 ← numberOfViolationsWithPriority priorityOf (results .violations) 3
      pure (decide ((n3 : Int) > st.argMaxP3.value))

/-- `main.cpp:153-167`, `handleExit`. -/
def handleExit (priorityOf : RuleId → Int) (st : OptionState) (results : Answers) :
    Outcome ExitCode :=
  if hasAny (results .errors) then .ok .COMPILATION_ERRORS
  else do
    let exceed ← exceedThreshold priorityOf st results
    if exceed then pure .VIOLATIONS_EXCEED_THRESHOLD else pure .SUCCESS

/-- `main.cpp:51-64`, `outStream`: `none` is standard output, otherwise the file opened. -/
def outStream (canOpen : Str → Bool) (st : OptionState) : Outcome (Option Str) :=
  if !hasOutputPath st then .ok none
  else do
    let output ← outputPath st
    if canOpen output then pure (some output)
    else .throws ("cannot open report output file ".toList ++ output)

/-- Everything outside the program: environment, plugins, clang, the file system, reporters. -/
structure Machine (U σ κ : Type) where
  env : Env
  listing : Listing
  ruleLibrary : Str → Option (List RuleId)
  reporterLibrary : Str → Option ReporterLibrary
  toolchain : Toolchain U
  mainExecutable : Str
  db : Str → List CompileCommand
  sources : List Str
  ruleIdentifier : RuleId → Str
  priorityOf : RuleId → Int
  takeoff : RuleId → σ → U → Outcome (σ × List Report)
  initialRules : σ
  hash : Violation → κ
  canOpen : Str → Bool
  /-- `Reporter::report` of the reporter in the given library -/
  report : Str → Answers → Outcome Unit

variable {U σ κ : Type}

/-- `main.cpp:115-142`, `prepare`: the loaded registry and reporter, or the exit code. -/
def prepare (m : Machine U σ κ) (st : OptionState) : Outcome (ExitCode ⊕ (Registry × Str)) :=
  match consumeArgRulesPath m.listing m.ruleLibrary ⟨[], none⟩ (rulesPath m.env st) with
  | .ub => .ub
  | .throws _ => .ok (.inl .RULE_NOT_FOUND)
  | .ok ld =>
    if ld.registry.numberOfRules ≤ 0 then .ok (.inl .RULE_NOT_FOUND)
    else
      match loadReporter m.listing m.reporterLibrary st.argReportType.value (reporterPath m.env) with
      | .ub => .ub
      | .throws _ => .ok (.inl .REPORTER_NOT_FOUND)
      | .ok reporter => .ok (.inr (ld.registry, reporter))

/-- `main.cpp:206-211`: the body of the reporting `try` block. -/
def reportStage (m : Machine U σ κ) (st : OptionState) (reporter : Str) (results : Answers) :
    Outcome Unit := do
  let _ ← outStream m.canOpen st
  m.report reporter results

/-- `main.cpp:181-218`: `main` once the options are processed. -/
def mainWith [DecidableEq κ] (m : Machine U σ κ) (st : OptionState) : Outcome ExitCode := do
  match ← prepare m st with
  | .inl status => pure status
  | .inr (registry, reporter) =>
    let rules ← st.filter.filteredRules registry m.ruleIdentifier
    match driverRun m.toolchain m.mainExecutable st.argGlobalAnalysis.value
        st.argClangChecker.value ⟨rules, m.takeoff⟩
        ⟨m.env.cwd, ResultCollector.empty, m.initialRules⟩ m.db m.sources with
    | .ub => .ub
    | .throws _ => pure .ERROR_WHILE_PROCESSING
    | .ok ds =>
      let results := getResults m.hash st.argDuplications.value ds.collector
      match reportStage m st reporter results with
      | .ub => .ub
      | .throws _ => pure .ERROR_WHILE_REPORTING
      | .ok () => handleExit m.priorityOf st results

/-- `main.cpp:169-219`, `main`.  `cli = none` when command line parsing fails.  `throws` is an
exception that escapes `main` (the process aborts). -/
def mainProgram [DecidableEq κ] (m : Machine U σ κ) (cli : Option CommandLine) :
    Outcome ExitCode :=
  match cli with
  | none => .ok .COMMON_OPTIONS_PARSER_ERRORS
  | some cli => do
    let st ← processOptions m.env cli
    mainWith m st

end Oclint
