import Verif.Model.Verbose
import Verif.Spec.Driver
import Verif.Spec.Results

/-!
# Specification of a whole run of the driver
-/

namespace Oclint.Spec
open Oclint

variable {U σ : Type}

/-- The command line handed to clang for the adjusted command of a job. -/
inductive ClangCall (exe : Str) : Bool → List Str → List Str → Prop where
  | normal (first : Str) (rest : List Str) :
      ClangCall exe false (first :: rest)
        (((exe :: rest).filter fun a => decide (a ≠ "-gmodules".toList)) ++ ["-D__OCLINT__".toList])
  | checker (first last : Str) (middle : List Str) :
      ClangCall exe true (first :: (middle ++ [last]))
        ([exe, "--analyze".toList] ++ (middle.filter fun a => decide (a ≠ "-gmodules".toList)) ++
          ["-D__OCLINT__".toList])

/-- What clang's front end is called with. -/
def FrontEnd (c : Compilation) (args : List Str) : Prop :=
  ∃ job others, c.jobs = job :: others ∧ (others = [] ∨ true ∈ c.offloadActions) ∧
    job.isCommand = true ∧ job.creator = "clang".toList ∧ job.arguments = args

/-- Why there is no call of the front end. -/
inductive NoFrontEnd (c : Compilation) : Str → Prop where
  | empty : c.jobs = [] →
      NoFrontEnd c ("compilation contains no job:\n".toList ++ c.jobsText ++ "\n".toList)
  | many : c.jobs.length ≥ 2 → true ∉ c.offloadActions →
      NoFrontEnd c ("compilation contains multiple jobs:\n".toList ++ c.jobsText ++ "\n".toList)
  | other (job : Job) (others : List Job) : c.jobs = job :: others →
      (others = [] ∨ true ∈ c.offloadActions) → job.isCommand = false →
      NoFrontEnd c ("compilation job does not contain correct command:\n".toList ++ c.jobsText ++
        "\n".toList)
  | foreign (job : Job) (others : List Job) : c.jobs = job :: others →
      (others = [] ∨ true ∈ c.offloadActions) → job.isCommand = true →
      job.creator ≠ "clang".toList → NoFrontEnd c "expected a command for clang compiler".toList

/-- The directory of a job, with escaped spaces made plain. -/
def JobDirectory (job : Str × CompileCommand) (dir : Str) : Prop :=
  Replaced "\\ ".toList " ".toList job.2.directory dir

/-- Compiling a job in the current directory `cwd` ends in the current directory `cwd'` with result
`r`. -/
inductive Compiles (tc : Toolchain U) (exe : Str) (checker : Bool) (cwd : Str)
    (job : Str × CompileCommand) : CompileResult U → Str → Prop where
  | mk (dir cwd' : Str) (argv cc1 : List Str) : JobDirectory job dir → tc.chdir cwd dir = some cwd' →
      ClangCall exe checker (tc.adjust job.2.commandLine job.1) argv →
      FrontEnd (tc.build cwd' argv) cc1 → Compiles tc exe checker cwd job (tc.compile cwd' cc1) cwd'

/-- A job cannot be compiled; the run stops. -/
inductive Stops (tc : Toolchain U) (exe : Str) (checker : Bool) (cwd : Str)
    (job : Str × CompileCommand) : Str → Prop where
  | directory (dir : Str) : JobDirectory job dir → tc.chdir cwd dir = none →
      Stops tc exe checker cwd job ("Cannot change dictionary into \"".toList ++ dir ++
        "\", please make sure the directory exists and you have permission to access!".toList)
  | frontEnd (dir cwd' w : Str) (argv : List Str) : JobDirectory job dir →
      tc.chdir cwd dir = some cwd' →
      ClangCall exe checker (tc.adjust job.2.commandLine job.1) argv →
      NoFrontEnd (tc.build cwd' argv) w → Stops tc exe checker cwd job w

/-- All jobs are compiled, one after the other, each where the one before left. -/
inductive CompileAll (tc : Toolchain U) (exe : Str) (checker : Bool) :
    Str → List (Str × CompileCommand) → List (CompileResult U) → Str → Prop where
  | nil (cwd : Str) : CompileAll tc exe checker cwd [] [] cwd
  | cons {cwd mid cwd' : Str} {job : Str × CompileCommand} {jobs : List (Str × CompileCommand)}
      {r : CompileResult U} {rs : List (CompileResult U)} :
      Compiles tc exe checker cwd job r mid → CompileAll tc exe checker mid jobs rs cwd' →
      CompileAll tc exe checker cwd (job :: jobs) (r :: rs) cwd'

/-- The unit of a compile without errors. -/
def unitOf (r : CompileResult U) : Option U := if r.errorOccurred then none else r.context

/-- What is kept of the reports of a rule: those with a file. -/
def kept (rule : RuleId) (reports : List Report) : List Violation :=
  (reports.filter fun r => decide (r.path ≠ [])).map (reportEntry rule)

/-- The rules look at a unit, one after the other; the reports with a file. -/
inductive Checked (a : Analyzer U σ) (u : U) : σ → List RuleId → List Violation → σ → Prop where
  | nil (s : σ) : Checked a u s [] [] s
  | cons {s mid s' : σ} {rule : RuleId} {rules : List RuleId} {reports : List Report}
      {found : List Violation} : a.takeoff rule s u = .ok (mid, reports) →
      Checked a u mid rules found s' → Checked a u s (rule :: rules) (kept rule reports ++ found) s'

/-- One of the rules throws while it looks at a unit. -/
inductive GivesUp (a : Analyzer U σ) (u : U) (s : σ) (rules : List RuleId) (w : Str) : Prop where
  | mk (before after : List RuleId) (rule : RuleId) (found : List Violation) (mid : σ) :
      rules = before ++ rule :: after → Checked a u s before found mid →
      a.takeoff rule mid u = .throws w → GivesUp a u s rules w

/-- The units are looked at, one after the other; the findings of each. -/
inductive CheckedAll (a : Analyzer U σ) : σ → List U → List (List Violation) → σ → Prop where
  | nil (s : σ) : CheckedAll a s [] [] s
  | cons {s mid s' : σ} {u : U} {us : List U} {found : List Violation} {rest : List (List Violation)} :
      Checked a u s a.filteredRules found mid → CheckedAll a mid us rest s' →
      CheckedAll a s (u :: us) (found :: rest) s'

/-- A rule throws at the unit `u`, after the units `before`. -/
inductive GivesUpAt (a : Analyzer U σ) (s : σ) (us before : List U) (u : U) (w : Str) : Prop where
  | mk (after : List U) (found : List (List Violation)) (mid : σ) : us = before ++ u :: after →
      CheckedAll a s before found mid → GivesUp a u mid a.filteredRules w →
      GivesUpAt a s us before u w

/-- The entries of the diagnostics of certain levels. -/
def entriesOf (level : DiagLevel → Bool) (rs : List (CompileResult U)) : List Violation :=
  ((rs.flatMap (·.diagnostics)).filter fun d => level d.level).map diagnosticEntry

/-- What a completed run collects: `rs` are the compile results, `bugs` those of clang's static
analyzer, `found` the findings for each unit. -/
def collected (c : ResultCollector) (rs bugs : List (CompileResult U)) (found : List (List Violation)) :
    ResultCollector :=
  { collection := c.collection ++ found
    errorSet := c.errorSet ++ entriesOf (fun l => l = .error ∨ l = .fatal) rs
    warningSet := c.warningSet ++ entriesOf (fun l => l = .warning) rs
    checkerBugSet := c.checkerBugSet ++ entriesOf (fun _ => true) bugs }

/-- The jobs of the sources. -/
def jobsOf (tc : Toolchain U) (db : Str → List CompileCommand) (sources : List Str) :
    List (Str × CompileCommand) :=
  sources.flatMap fun s => (db (tc.absolutePath s)).map fun c => (tc.absolutePath s, c)

/-- A run that ends: the compile results, those of clang's static analyzer, and the state after it. -/
inductive Completes (tc : Toolchain U) (exe : Str) (checker : Bool) (a : Analyzer U σ)
    (st : DriverState σ) (jobs : List (Str × CompileCommand)) :
    List (CompileResult U) → List (CompileResult U) → DriverState σ → Prop where
  | plain {rs : List (CompileResult U)} {found : List (List Violation)} {cwd : Str} {s : σ} :
      checker = false → CompileAll tc exe false st.cwd jobs rs cwd →
      CheckedAll a st.rules (rs.filterMap unitOf) found s →
      Completes tc exe checker a st jobs rs [] ⟨cwd, collected st.collector rs [] found, s⟩
  | checked {rs bugs : List (CompileResult U)} {found : List (List Violation)} {mid cwd : Str} {s : σ} :
      checker = true → CompileAll tc exe false st.cwd jobs rs mid →
      CheckedAll a st.rules (rs.filterMap unitOf) found s →
      CompileAll tc exe true mid jobs bugs cwd →
      Completes tc exe checker a st jobs rs bugs ⟨cwd, collected st.collector rs bugs found, s⟩

/-- A run that stops at a job: the results before it. -/
inductive StopsAt (tc : Toolchain U) (exe : Str) (checker : Bool) (cwd : Str)
    (jobs : List (Str × CompileCommand)) : List (CompileResult U) → Str → Str → Prop where
  | mk (before after : List (Str × CompileCommand)) (job : Str × CompileCommand) (w mid : Str)
      (rs : List (CompileResult U)) : jobs = before ++ job :: after →
      CompileAll tc exe checker cwd before rs mid → Stops tc exe checker mid job w →
      StopsAt tc exe checker cwd jobs rs job.1 w

/-! ## Words -/

/-- The lines about a compile. -/
def compileLines (file : Str) (r : CompileResult U) : Str :=
  "Compiling ".toList ++ file ++ " ...\n - ".toList ++
    (if (unitOf r).isSome then "Success".toList else "Failed".toList) ++ "\n".toList

/-- The line about a unit. -/
def analysisLine (mainFile : U → Str) (u : U) : Str :=
  "Analyzing ".toList ++ mainFile u ++ " - Done\n".toList

/-- The line about clang's static analyzer. -/
def checkerLine (file : Str) (r : CompileResult U) : Str :=
  "Clang Static Analyzer ".toList ++ file ++ " - ".toList ++
    (if (unitOf r).isSome then "Done".toList else "Finished with Failure".toList) ++ "\n".toList

/-- The lines of files compiled together, and of the units that came out of it. -/
def togetherLines (mainFile : U → Str) (files : List Str) (rs : List (CompileResult U)) : Str :=
  (List.zipWith compileLines files rs).flatten ++ (rs.filterMap unitOf).flatMap (analysisLine mainFile)

/-- The lines of files compiled and analysed one after the other. -/
def separateLines (mainFile : U → Str) (files : List Str) (rs : List (CompileResult U)) : Str :=
  (List.zipWith (fun f r => compileLines f r ++ (unitOf r).toList.flatMap (analysisLine mainFile))
    files rs).flatten

/-- The lines of clang's static analyzer. -/
def checkerLines (files : List Str) (rs : List (CompileResult U)) : Str :=
  (List.zipWith checkerLine files rs).flatten

/-- The lines of a completed first pass. -/
def passLines (mainFile : U → Str) (together : Bool) (files : List Str) (rs : List (CompileResult U)) :
    Str :=
  if together then togetherLines mainFile files rs else separateLines mainFile files rs

/-- Everything that is written about a completed run. -/
def runLines (mainFile : U → Str) (together : Bool) (files : List Str)
    (rs bugs : List (CompileResult U)) : Str :=
  passLines mainFile together files rs ++ checkerLines files bugs

/-- Everything that is written about a run that stops while compiling `file`: no unit is analysed if
the files are compiled together. -/
def stoppedLines (mainFile : U → Str) (together : Bool) (files : List Str)
    (rs : List (CompileResult U)) (file : Str) : Str :=
  (if together then (List.zipWith compileLines files rs).flatten
    else separateLines mainFile files rs) ++ "Compiling ".toList ++ file ++ " ...\n".toList

/-- What `-verbose` writes. -/
def aloud (on : Bool) (s : Str) : Str := if on then s else []

/-- The run stops with the message `w`; `words` is what is written until then. -/
inductive RunStops (tc : Toolchain U) (exe : Str) (checker : Bool) (mainFile : U → Str)
    (together : Bool) (a : Analyzer U σ) (st : DriverState σ) (jobs : List (Str × CompileCommand)) :
    Str → Str → Prop where
  /-- a job cannot be compiled; the rules have seen all units before it if they go one by one -/
  | compiling {rs : List (CompileResult U)} {file w : Str} :
      StopsAt tc exe false st.cwd jobs rs file w →
      (together = false → ∃ found s, CheckedAll a st.rules (rs.filterMap unitOf) found s) →
      RunStops tc exe checker mainFile together a st jobs w
        (stoppedLines mainFile together (jobs.map (·.1)) rs file)
  /-- all jobs are compiled, then a rule throws -/
  | ruleLater {rs : List (CompileResult U)} {mid w : Str} {before : List U} {u : U} :
      together = true → CompileAll tc exe false st.cwd jobs rs mid →
      GivesUpAt a st.rules (rs.filterMap unitOf) before u w →
      RunStops tc exe checker mainFile together a st jobs w
        ((List.zipWith compileLines (jobs.map (·.1)) rs).flatten ++
          before.flatMap (analysisLine mainFile) ++ "Analyzing ".toList ++ mainFile u)
  /-- a rule throws at the unit of a job; the jobs after it are not compiled -/
  | ruleNow {before after : List (Str × CompileCommand)} {job : Str × CompileCommand}
      {rs : List (CompileResult U)} {mid mid' w : Str} {found : List (List Violation)} {s : σ}
      {r : CompileResult U} {u : U} :
      together = false → jobs = before ++ job :: after →
      CompileAll tc exe false st.cwd before rs mid →
      CheckedAll a st.rules (rs.filterMap unitOf) found s → Compiles tc exe false mid job r mid' →
      unitOf r = some u → GivesUp a u s a.filteredRules w →
      RunStops tc exe checker mainFile together a st jobs w
        (separateLines mainFile (before.map (·.1)) rs ++ compileLines job.1 r ++
          "Analyzing ".toList ++ mainFile u)
  /-- clang's static analyzer cannot be started for a job -/
  | checking {rs bugs : List (CompileResult U)} {mid file w : Str} {found : List (List Violation)}
      {s : σ} : checker = true → CompileAll tc exe false st.cwd jobs rs mid →
      CheckedAll a st.rules (rs.filterMap unitOf) found s → StopsAt tc exe true mid jobs bugs file w →
      RunStops tc exe checker mainFile together a st jobs w
        (runLines mainFile together (jobs.map (·.1)) rs bugs ++ "Clang Static Analyzer ".toList ++ file)

/-- The message about a file that is not in the compilation database. -/
def skipLine (file : Str) : Str :=
  "Skipping ".toList ++ file ++ ". Compile command not found.\n".toList

/-- The messages about the sources that are not in the compilation database, in order. -/
def skipLines (tc : Toolchain U) (db : Str → List CompileCommand) (sources : List Str) : Str :=
  ((sources.map tc.absolutePath).filter fun f => decide (db f = [])).flatMap skipLine

end Oclint.Spec
