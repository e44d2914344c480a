import Verif.Model.Console
import Verif.Spec.Main
import Verif.Spec.Run

/-!
# Specification of what the main program writes
-/

namespace Oclint.Spec
open Oclint

variable {U σ κ : Type}

/-- An error message on standard error. -/
def complaint (w : Str) : Str := "\noclint: error: ".toList ++ w ++ "\n".toList

/-- `a` with its limit, as in `P1=3[0] `. -/
def countText (p : Str) (n : Nat) (limit : Int) : Str :=
  p ++ "=".toList ++ toStringInt n ++ "[".toList ++ toStringInt limit ++ "] ".toList

/-- The last line of the message about too many violations. -/
def countsText (m : Machine U σ κ) (st : OptionState) (vs : List Violation) : Str :=
  countText "P1".toList (countWithPriority m.priorityOf 1 vs) st.argMaxP1.value ++
    countText "P2".toList (countWithPriority m.priorityOf 2 vs) st.argMaxP2.value ++
    countText "P3".toList (countWithPriority m.priorityOf 3 vs) st.argMaxP3.value ++ "\n".toList

/-- The list of the rules that run, if it is asked for. -/
def listing (m : Machine U σ κ) (st : OptionState) (asked : Bool) : Str :=
  if asked then
    "Enabled rules:\n".toList ++
      (runningRules m st).flatMap (fun r => "- ".toList ++ m.ruleIdentifier r ++ "\n".toList) ++
      "\n".toList
  else []

/-- The report is in its place: on standard output after the list of rules, or in the file. -/
inductive Placed (m : Machine U σ κ) (st : OptionState) (asked : Bool) (report : Str) :
    Str → List (Str × Str) → Prop where
  | screen : st.argOutput.value = "-".toList →
      Placed m st asked report (listing m st asked ++ report) []
  | file (f : Str) : st.argOutput.value ≠ "-".toList → outputPath st = .ok f → m.canOpen f = true →
      Placed m st asked report (listing m st asked) [(f, report)]

/-- `p` is the first plugin of the rule directories that does not open. -/
def BrokenRule (m : Machine U σ κ) (st : OptionState) (p : Str) : Prop :=
  ∃ before after, (rulesPath m.env st).flatMap (pluginPaths m.listing) = before ++ p :: after ∧
    (∀ q ∈ before, (m.ruleLibrary q).isSome) ∧ m.ruleLibrary p = none

/-- The plugins have no rule. -/
def NoRules (m : Machine U σ κ) (st : OptionState) : Prop :=
  ∀ p ∈ (rulesPath m.env st).flatMap (pluginPaths m.listing), m.ruleLibrary p = some []

/-- `q` is a reporter of another type. -/
def OtherReporter (m : Machine U σ κ) (st : OptionState) (q : Str) : Prop :=
  ∃ name, m.reporterLibrary q = some (some name) ∧ name ≠ st.argReportType.value

/-- `p` is the first reporter plugin of the wanted type. -/
def ReporterAt (m : Machine U σ κ) (st : OptionState) (p : Str) : Prop :=
  ∃ before after, pluginPaths m.listing (reporterDir m.env) = before ++ p :: after ∧
    (∀ q ∈ before, OtherReporter m st q) ∧
    m.reporterLibrary p = some (some st.argReportType.value)

/-- `p` is a reporter plugin that does not open, before any of the wanted type. -/
def BrokenReporter (m : Machine U σ κ) (st : OptionState) (p : Str) : Prop :=
  ∃ before after, pluginPaths m.listing (reporterDir m.env) = before ++ p :: after ∧
    (∀ q ∈ before, OtherReporter m st q) ∧ m.reporterLibrary p = none

/-- The message about a plugin that does not open. -/
def libraryText (v : Voices U) (p : Str) : Str :=
  v.dlerror p ++ "\n".toList ++ complaint ("cannot open dynamic library: ".toList ++ p)

/-- The state of the driver before anything is compiled. -/
def fresh (m : Machine U σ κ) : DriverState σ := ⟨m.env.cwd, ResultCollector.empty, m.initialRules⟩

/-- The analysis ends: what is collected, and what is written because of `-verbose`. -/
inductive Analysed (m : Machine U σ κ) (v : Voices U) (st : OptionState) (verbose : Bool) :
    ResultCollector → Str → Prop where
  | mk {rs bugs : List (CompileResult U)} {ds : DriverState σ} :
      Completes m.toolchain m.mainExecutable st.argClangChecker.value ⟨runningRules m st, m.takeoff⟩
        (fresh m) (jobsOf m.toolchain m.db m.sources) rs bugs ds →
      Analysed m v st verbose ds.collector
        (aloud verbose (runLines v.mainFile st.argGlobalAnalysis.value
          ((jobsOf m.toolchain m.db m.sources).map (·.1)) rs bugs))

/-- The analysis stops: with which message, and what is written because of `-verbose`. -/
inductive Aborted (m : Machine U σ κ) (v : Voices U) (st : OptionState) (verbose : Bool) :
    Str → Str → Prop where
  | mk {w words : Str} :
      RunStops m.toolchain m.mainExecutable st.argClangChecker.value v.mainFile
        st.argGlobalAnalysis.value ⟨runningRules m st, m.takeoff⟩ (fresh m)
        (jobsOf m.toolchain m.db m.sources) w words →
      Aborted m v st verbose w (aloud verbose words)

/-- What is on standard error before the program says anything itself: complaints about configuration
files, and the sources that are not in the compilation database. -/
def preface (m : Machine U σ κ) (v : Voices U) : Str :=
  v.configErrors ++ skipLines m.toolchain m.db m.sources

/-- What the program, with options `st`, writes, together with the exit code. -/
inductive Shows (m : Machine U σ κ) (v : Voices U) (st : OptionState) (asked verbose : Bool) :
    Nat → Console → Prop where
  | rules (p : Str) : BrokenRule m st p →
      Shows m v st asked verbose 1 ⟨[], v.configErrors ++ libraryText v p, [], []⟩
  | noRules : NoRules m st →
      Shows m v st asked verbose 1
        ⟨[], v.configErrors ++ complaint "no rule loaded".toList, [], []⟩
  | reporter (p : Str) : RulesLoad m st → BrokenReporter m st p →
      Shows m v st asked verbose 2 ⟨[], v.configErrors ++ libraryText v p, [], []⟩
  | noReporter : RulesLoad m st →
      (∀ q ∈ pluginPaths m.listing (reporterDir m.env), OtherReporter m st q) →
      Shows m v st asked verbose 2 ⟨[], v.configErrors ++
        complaint ("cannot find dynamic library for report type: ".toList ++ st.argReportType.value),
        [], []⟩
  | analysis (r w log : Str) : RulesLoad m st → ReporterAt m st r → Aborted m v st verbose w log →
      Shows m v st asked verbose 3 ⟨listing m st asked, preface m v ++ complaint w, log, []⟩
  /-- the report file does not open -/
  | closed (r f log : Str) (c : ResultCollector) : RulesLoad m st → ReporterAt m st r →
      Analysed m v st verbose c log → st.argOutput.value ≠ "-".toList → outputPath st = .ok f →
      m.canOpen f = false →
      Shows m v st asked verbose 4 ⟨listing m st asked,
        preface m v ++ complaint ("cannot open report output file ".toList ++ f), log, []⟩
  /-- the name of the report file is empty; `w` is what the library says about `at` -/
  | unnamed (r w log : Str) (c : ResultCollector) : RulesLoad m st → ReporterAt m st r →
      Analysed m v st verbose c log → st.argOutput.value = [] → outputPath st = .throws w →
      Shows m v st asked verbose 4 ⟨listing m st asked, preface m v ++ complaint w, log, []⟩
  | report (r w out log : Str) (files : List (Str × Str)) (c : ResultCollector) : RulesLoad m st →
      ReporterAt m st r → Analysed m v st verbose c log → m.report r (answers st c) = .throws w →
      Placed m st asked (v.text r (answers st c)) out files →
      Shows m v st asked verbose 4 ⟨out, preface m v ++ complaint w, log, files⟩
  | errors (r out log : Str) (files : List (Str × Str)) (c : ResultCollector) : RulesLoad m st →
      ReporterAt m st r → Analysed m v st verbose c log → m.report r (answers st c) = .ok () →
      Placed m st asked (v.text r (answers st c)) out files →
      rawAll c .errors ≠ [] → Shows m v st asked verbose 6 ⟨out, preface m v, log, files⟩
  | threshold (r out log : Str) (files : List (Str × Str)) (c : ResultCollector) : RulesLoad m st →
      ReporterAt m st r → Analysed m v st verbose c log → m.report r (answers st c) = .ok () →
      Placed m st asked (v.text r (answers st c)) out files →
      rawAll c .errors = [] → ¬ WithinLimits m st (answers st c .violations) →
      Shows m v st asked verbose 5 ⟨out, preface m v ++
        (complaint "violations exceed threshold".toList ++
          countsText m st (answers st c .violations)), log, files⟩
  | success (r out log : Str) (files : List (Str × Str)) (c : ResultCollector) : RulesLoad m st →
      ReporterAt m st r → Analysed m v st verbose c log → m.report r (answers st c) = .ok () →
      Placed m st asked (v.text r (answers st c)) out files →
      rawAll c .errors = [] → WithinLimits m st (answers st c .violations) →
      Shows m v st asked verbose 0 ⟨out, preface m v, log, files⟩

end Oclint.Spec
