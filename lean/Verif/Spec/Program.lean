import Verif.Spec.ConfigLifetime
import Verif.Spec.Main
import Verif.Spec.Options
import Verif.Spec.Run

/-!
# Specification of the exit code, from the command line and the configuration files on

No function of the model of the program occurs here, and no state of the options.
-/

namespace Oclint.Spec
open Oclint

variable {U σ κ : Type}

/-- Where rules are looked for: the directories of the command line, then those of the configuration
files, the installation's if there is none. -/
def ruleDirs (e : Env) (cli : CommandLine) : List Str :=
  match cli.rulesPath ++ (Spec.sources e).flatMap ConfigFile.rulePaths with
  | [] => [e.binPath ++ "/../lib/oclint/rules".toList]
  | d :: ds => d :: ds

/-- The rule plugins found there. -/
def rulePlugins (m : Machine U σ κ) (cli : CommandLine) : List Str :=
  (ruleDirs m.env cli).flatMap (pluginPaths m.listing)

/-- All rule plugins open, and there is a rule. -/
def RulesCome (m : Machine U σ κ) (cli : CommandLine) : Prop :=
  (∀ p ∈ rulePlugins m cli, m.ruleLibrary p ≠ none) ∧
    ∃ p ∈ rulePlugins m cli, ∃ r rs, m.ruleLibrary p = some (r :: rs)

open Classical in
/-- The rules that run: those of every plugin, taken once, that the requests select. -/
noncomputable def rulesThatRun (m : Machine U σ κ) (cli : CommandLine) : List RuleId :=
  ((rulePlugins m cli).eraseDups.flatMap fun p => (m.ruleLibrary p).getD []).filter
    fun r => decide (Selected (requests m.env cli) (m.ruleIdentifier r))

/-- The reporter plugins. -/
def reporterPlugins (m : Machine U σ κ) : List Str :=
  pluginPaths m.listing (m.env.binPath ++ "/../lib/oclint/reporters".toList)

/-- The reporter asked for. -/
def wantedReporter (m : Machine U σ κ) (cli : CommandLine) : Str :=
  effective m.env cli.reportType Said.reportType "text".toList

/-- A reporter plugin that opens and is another one. -/
def ReporterElse (m : Machine U σ κ) (cli : CommandLine) (p : Str) : Prop :=
  ∃ name, m.reporterLibrary p = some (some name) ∧ name ≠ wantedReporter m cli

/-- The reporter used: the first of the name asked for. -/
def ReporterIs (m : Machine U σ κ) (cli : CommandLine) (path : Str) : Prop :=
  ∃ before after, reporterPlugins m = before ++ path :: after ∧
    (∀ p ∈ before, ReporterElse m cli p) ∧
    m.reporterLibrary path = some (some (wantedReporter m cli))

/-- There is no reporter: none has the name, or one that does not open comes first. -/
def ReporterMissing (m : Machine U σ κ) (cli : CommandLine) : Prop :=
  (∀ p ∈ reporterPlugins m, ReporterElse m cli p) ∨
    ∃ before p after, reporterPlugins m = before ++ p :: after ∧
      (∀ q ∈ before, ReporterElse m cli q) ∧ m.reporterLibrary p = none

/-- Where the report is asked to go. -/
def wantedOutput (e : Env) (cli : CommandLine) : Str :=
  effective e cli.output Said.output "-".toList

/-- Where the report goes: `none` is standard output. -/
inductive Destination (e : Env) (cli : CommandLine) : Option Str → Prop where
  | standard : wantedOutput e cli = "-".toList → Destination e cli none
  | absolute (rest : Str) : wantedOutput e cli = '/' :: rest →
      Destination e cli (some ('/' :: rest))
  | relative (c : Char) (rest : Str) : wantedOutput e cli = c :: rest → c ≠ '/' →
      wantedOutput e cli ≠ "-".toList →
      Destination e cli (some (recordedCwd e ++ '/' :: c :: rest))

/-- The report has somewhere to go. -/
def OutputOpens (m : Machine U σ κ) (cli : CommandLine) : Prop :=
  ∃ d, Destination m.env cli d ∧ ∀ f, d = some f → m.canOpen f = true

/-- Whether clang's static analyzer runs too. -/
def checkerWanted (e : Env) (cli : CommandLine) : Bool :=
  effective e cli.clangChecker Said.clangChecker false

/-- The analysis comes to its end: the compile results, those of clang's static analyzer, and the
findings in each unit. -/
def AnalysisEnds (m : Machine U σ κ) (cli : CommandLine) (rs bugs : List (CompileResult U))
    (found : List (List Violation)) : Prop :=
  ∃ mid s, CompileAll m.toolchain m.mainExecutable false m.env.cwd
      (jobsOf m.toolchain m.db m.sources) rs mid ∧
    CheckedAll ⟨rulesThatRun m cli, m.takeoff⟩ m.initialRules (rs.filterMap unitOf) found s ∧
    (checkerWanted m.env cli = false ∧ bugs = [] ∨
      checkerWanted m.env cli = true ∧ ∃ cwd, CompileAll m.toolchain m.mainExecutable true mid
        (jobsOf m.toolchain m.db m.sources) bugs cwd)

/-- The analysis stops half way. -/
def AnalysisStops (m : Machine U σ κ) (cli : CommandLine) : Prop :=
  ∃ w words, RunStops m.toolchain m.mainExecutable (checkerWanted m.env cli) (fun _ => [])
    (effective m.env cli.globalAnalysis Said.globalAnalysis false) ⟨rulesThatRun m cli, m.takeoff⟩
    ⟨m.env.cwd, ResultCollector.empty, m.initialRules⟩ (jobsOf m.toolchain m.db m.sources) w words

/-- Everything that was found, of each kind. -/
def everything (rs bugs : List (CompileResult U)) (found : List (List Violation)) :
    Channel → List Violation
  | .violations => found.flatten
  | .errors => entriesOf (fun l => l = .error ∨ l = .fatal) rs
  | .warnings => entriesOf (fun l => l = .warning) rs
  | .checkerBugs => entriesOf (fun _ => true) bugs

/-- What the report is about: everything, or everything once. -/
def reportedOn (e : Env) (cli : CommandLine) (rs bugs : List (CompileResult U))
    (found : List (List Violation)) : Answers := fun ch =>
  if effective e cli.duplications Said.duplications false then everything rs bugs found ch
  else firsts (everything rs bugs found ch)

/-- No more violations of each priority than allowed. -/
def FewEnough (m : Machine U σ κ) (cli : CommandLine) (vs : List Violation) : Prop :=
  (countWithPriority m.priorityOf 1 vs : Int) ≤ effective m.env cli.maxP1 Said.maxP1 0 ∧
    (countWithPriority m.priorityOf 2 vs : Int) ≤ effective m.env cli.maxP2 Said.maxP2 10 ∧
    (countWithPriority m.priorityOf 3 vs : Int) ≤ effective m.env cli.maxP3 Said.maxP3 20

/-- The exit codes of the program. -/
inductive ProgramEnds (m : Machine U σ κ) (cli : CommandLine) : Nat → Prop where
  | noRules : ¬ RulesCome m cli → ProgramEnds m cli 1
  | noReporter : RulesCome m cli → ReporterMissing m cli → ProgramEnds m cli 2
  | stopped (path : Str) : RulesCome m cli → ReporterIs m cli path → AnalysisStops m cli →
      ProgramEnds m cli 3
  | notOpened (path : Str) (rs bugs : List (CompileResult U)) (found : List (List Violation)) :
      RulesCome m cli → ReporterIs m cli path → AnalysisEnds m cli rs bugs found →
      ¬ OutputOpens m cli → ProgramEnds m cli 4
  | notReported (path w : Str) (rs bugs : List (CompileResult U)) (found : List (List Violation)) :
      RulesCome m cli → ReporterIs m cli path → AnalysisEnds m cli rs bugs found →
      OutputOpens m cli → m.report path (reportedOn m.env cli rs bugs found) = .throws w →
      ProgramEnds m cli 4
  | errors (path : Str) (rs bugs : List (CompileResult U)) (found : List (List Violation)) :
      RulesCome m cli → ReporterIs m cli path → AnalysisEnds m cli rs bugs found →
      OutputOpens m cli → m.report path (reportedOn m.env cli rs bugs found) = .ok () →
      everything rs bugs found .errors ≠ [] → ProgramEnds m cli 6
  | tooMany (path : Str) (rs bugs : List (CompileResult U)) (found : List (List Violation)) :
      RulesCome m cli → ReporterIs m cli path → AnalysisEnds m cli rs bugs found →
      OutputOpens m cli → m.report path (reportedOn m.env cli rs bugs found) = .ok () →
      everything rs bugs found .errors = [] →
      ¬ FewEnough m cli (reportedOn m.env cli rs bugs found .violations) → ProgramEnds m cli 5
  | fine (path : Str) (rs bugs : List (CompileResult U)) (found : List (List Violation)) :
      RulesCome m cli → ReporterIs m cli path → AnalysisEnds m cli rs bugs found →
      OutputOpens m cli → m.report path (reportedOn m.env cli rs bugs found) = .ok () →
      everything rs bugs found .errors = [] →
      FewEnough m cli (reportedOn m.env cli rs bugs found .violations) → ProgramEnds m cli 0

/-- What the program relies on: commands with a compiler, and with an argument if clang's static analyzer
is to run; reporter plugins that can create a reporter; rules and reporters that behave. -/
structure Reliable (m : Machine U σ κ) (cli : CommandLine) : Prop where
  commands : ∀ job ∈ jobsOf m.toolchain m.db m.sources,
    m.toolchain.adjust job.2.commandLine job.1 ≠ []
  checked : checkerWanted m.env cli = true → ∀ job ∈ jobsOf m.toolchain m.db m.sources,
    2 ≤ (m.toolchain.adjust job.2.commandLine job.1).length
  rules : ∀ rule s u, m.takeoff rule s u ≠ .ub
  reporters : ∀ p ∈ reporterPlugins m, m.reporterLibrary p ≠ some none
  reports : ∀ p a, m.report p a ≠ .ub

end Oclint.Spec
