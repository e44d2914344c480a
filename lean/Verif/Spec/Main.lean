import Verif.Model.Main
import Verif.Spec.Driver
import Verif.Spec.Results

/-!
# Specification of the exit code
-/

namespace Oclint.Spec
open Oclint

variable {U σ κ : Type}

/-- Where the reporters are. -/
def reporterDir (e : Env) : Str := e.libPath ++ "/oclint/reporters".toList

/-- Every plugin in the rule directories opens and at least one rule is among them. -/
def RulesLoad (m : Machine U σ κ) (st : OptionState) : Prop :=
  (∀ p ∈ (rulesPath m.env st).flatMap (pluginPaths m.listing), (m.ruleLibrary p).isSome) ∧
    ∃ p ∈ (rulesPath m.env st).flatMap (pluginPaths m.listing),
      ∃ r rs, m.ruleLibrary p = some (r :: rs)

/-- The rules that run: every rule of every plugin, each plugin once, minus those filtered out. -/
def runningRules (m : Machine U σ κ) (st : OptionState) : List RuleId :=
  (((rulesPath m.env st).flatMap (pluginPaths m.listing)).eraseDups.flatMap
      fun p => (m.ruleLibrary p).getD []).filter
    fun r => st.filter.accepts (m.ruleIdentifier r)

/-- Outcome of the analysis stage. -/
def analysis (m : Machine U σ κ) (st : OptionState) : Outcome ResultCollector :=
  match driverRun m.toolchain m.mainExecutable st.argGlobalAnalysis.value st.argClangChecker.value
      ⟨runningRules m st, m.takeoff⟩ ⟨m.env.cwd, ResultCollector.empty, m.initialRules⟩ m.db
      m.sources with
  | .ok ds => .ok ds.collector
  | .throws w => .throws w
  | .ub => .ub

/-- The answers of the results object: with duplicates, or only first occurrences. -/
def answers (st : OptionState) (c : ResultCollector) : Answers := fun ch =>
  if st.argDuplications.value then rawAll c ch else firsts (rawAll c ch)

/-- The report is written: its destination opens and the reporter succeeds. -/
def Reported (m : Machine U σ κ) (st : OptionState) (reporter : Str) (a : Answers) :
    Outcome Unit :=
  if st.argOutput.value = "-".toList then m.report reporter a
  else
    match outputPath st with
    | .ok file => if m.canOpen file then m.report reporter a else .throws []
    | _ => .throws []

/-- Every priority count is within its limit. -/
def WithinLimits (m : Machine U σ κ) (st : OptionState) (vs : List Violation) : Prop :=
  (countWithPriority m.priorityOf 1 vs : Int) ≤ st.argMaxP1.value ∧
    (countWithPriority m.priorityOf 2 vs : Int) ≤ st.argMaxP2.value ∧
    (countWithPriority m.priorityOf 3 vs : Int) ≤ st.argMaxP3.value

/-- When the program, with options `st`, exits with which code. -/
inductive Exits (m : Machine U σ κ) (st : OptionState) : Nat → Prop where
  /-- 1: a rule plugin is broken or there is no rule -/
  | rules : ¬ RulesLoad m st → Exits m st 1
  /-- 2: the reporter cannot be loaded -/
  | reporter (w : Str) : RulesLoad m st →
      loadReporter m.listing m.reporterLibrary st.argReportType.value (reporterDir m.env) =
        .throws w → Exits m st 2
  /-- 3: analysis fails -/
  | analysis (r w : Str) : RulesLoad m st →
      loadReporter m.listing m.reporterLibrary st.argReportType.value (reporterDir m.env) =
        .ok r → Spec.analysis m st = .throws w → Exits m st 3
  /-- 4: reporting fails -/
  | report (r w : Str) (c : ResultCollector) : RulesLoad m st →
      loadReporter m.listing m.reporterLibrary st.argReportType.value (reporterDir m.env) =
        .ok r → Spec.analysis m st = .ok c → Reported m st r (answers st c) = .throws w →
      Exits m st 4
  /-- 6: the compiler reported errors -/
  | errors (r : Str) (c : ResultCollector) : RulesLoad m st →
      loadReporter m.listing m.reporterLibrary st.argReportType.value (reporterDir m.env) =
        .ok r → Spec.analysis m st = .ok c → Reported m st r (answers st c) = .ok () →
      rawAll c .errors ≠ [] → Exits m st 6
  /-- 5: no compiler errors but too many violations of some priority -/
  | threshold (r : Str) (c : ResultCollector) : RulesLoad m st →
      loadReporter m.listing m.reporterLibrary st.argReportType.value (reporterDir m.env) =
        .ok r → Spec.analysis m st = .ok c → Reported m st r (answers st c) = .ok () →
      rawAll c .errors = [] → ¬ WithinLimits m st (answers st c .violations) → Exits m st 5
  /-- 0: everything fine -/
  | success (r : Str) (c : ResultCollector) : RulesLoad m st →
      loadReporter m.listing m.reporterLibrary st.argReportType.value (reporterDir m.env) =
        .ok r → Spec.analysis m st = .ok c → Reported m st r (answers st c) = .ok () →
      rawAll c .errors = [] → WithinLimits m st (answers st c .violations) → Exits m st 0

end Oclint.Spec
