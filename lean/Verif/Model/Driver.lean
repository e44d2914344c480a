import Verif.Model.Results

/-!
# The driver: compile jobs, diagnostics and analysis

Models `oclint-driver/lib/Driver.cpp`, `DiagnosticDispatcher.cpp` and `RulesetBasedAnalyzer.cpp`.

Clang itself (parsing, job construction, argument adjusters) and the operating system are the
parameters of `Toolchain`; nothing is assumed about them.  Analysed units (`ASTContext*`) have an
arbitrary type `U`; rules may keep state of an arbitrary type `σ` between calls, and they may throw
(`LongVariableNameRule` does for limits far below zero, `longNameShown`) or have undefined behaviour
(`atoi` in `RuleConfiguration::intForKey` for a number that is too large).
-/

namespace Oclint

/-! ## Diagnostics -/

/-- `clang::DiagnosticsEngine::Level`. -/
inductive DiagLevel where
  | ignored | note | remark | warning | error | fatal
  deriving Repr, DecidableEq

/-- The parts of a `clang::Diagnostic` that are read. -/
structure Diagnostic where
  level : DiagLevel
  hasSourceManager : Bool
  /-- `getFilename(location)` -/
  filename : Str
  /-- `location.isMacroID()` -/
  isMacro : Bool
  /-- `getFilename(getExpansionLoc(location))` -/
  expansionFilename : Str
  line : Int
  column : Int
  message : Str
  deriving Repr, DecidableEq

/-- `DiagnosticDispatcher.cpp:18-23`, `LocalSourceLocation`. -/
structure LocalSourceLocation where
  line : Int
  column : Int
  filename : Str
  deriving Repr, DecidableEq

/-- `DiagnosticDispatcher.cpp:25-32`, `emptySourceLocation`. -/
def emptySourceLocation : LocalSourceLocation := ⟨0, 0, []⟩

/-- `DiagnosticDispatcher.cpp:34-62`, `populateSourceLocation`. -/
def populateSourceLocation (d : Diagnostic) : LocalSourceLocation :=
  if !d.hasSourceManager then emptySourceLocation
  else
    { filename := if d.filename.isEmpty && d.isMacro then d.expansionFilename else d.filename
      line := d.line
      column := d.column }

/-- `DiagnosticDispatcher.cpp:64-95`, `HandleDiagnostic`. -/
def handleDiagnostic (checker : Bool) (c : ResultCollector) (d : Diagnostic) : ResultCollector :=
  let loc := populateSourceLocation d
  let violation : Violation :=
    { rule := none, path := loc.filename, startLine := loc.line, startColumn := loc.column,
      endLine := 0, endColumn := 0, message := d.message }
  if checker then c.addCheckerBug violation
  else
    let c := if d.level = .warning then c.addWarning violation else c
    if d.level = .error ∨ d.level = .fatal then c.addError violation else c

/-! ## Compile commands -/

/-- `clang::tooling::CompileCommand`. -/
structure CompileCommand where
  directory : Str
  commandLine : List Str
  deriving Repr, DecidableEq

/-- One element of `JobList`. -/
structure Job where
  isCommand : Bool
  creator : Str
  arguments : List Str
  deriving Repr, DecidableEq

/-- `clang::driver::Compilation`: jobs and, per action, whether it is an `OffloadAction`. -/
structure Compilation where
  jobs : List Job
  offloadActions : List Bool
  jobsText : Str
  deriving Repr, DecidableEq

/-- What compiling one job yields. -/
structure CompileResult (U : Type) where
  diagnostics : List Diagnostic
  errorOccurred : Bool
  context : Option U
  /-- `hasTarget()` (`CompilerInstance.cpp:88-89`) -/
  hasTarget : Bool
  /-- for each input whether `BeginSourceFile` succeeds (`CompilerInstance.cpp:92-102`) -/
  begins : List Bool

/-- Clang and the operating system. -/
structure Toolchain (U : Type) where
  /-- `clang::tooling::getAbsolutePath` -/
  absolutePath : Str → Str
  /-- `chdir`: current directory, target; new current directory or failure -/
  chdir : Str → Str → Option Str
  /-- the argument adjusters of `Driver.cpp:265-273` -/
  adjust : List Str → Str → List Str
  /-- `driver->BuildCompilation` in a current directory -/
  build : Str → List Str → Compilation
  /-- `CompilerInstance::start` in a current directory on cc1 arguments.  Which front end action it
  runs depends on `option::enableClangChecker()` only (`CompilerInstance.cpp:57-62`), not on the
  pass, so it is the same for all compilers of a run. -/
  compile : Str → List Str → CompileResult U

/-- `Driver.cpp:101-121`, `constructCompileCommands`. -/
def constructCompileCommands (absolutePath : Str → Str) (db : Str → List CompileCommand)
    (sourcePaths : List Str) : List (Str × CompileCommand) :=
  sourcePaths.foldl
    (fun acc sourcePath =>
      let filePath := absolutePath sourcePath
      let cmds := db filePath
      if cmds.isEmpty then acc else cmds.foldl (fun acc cmd => acc ++ [(filePath, cmd)]) acc)
    []

/-- `Driver.cpp:131-176`, `getCC1Arguments`. -/
def getCC1Arguments (c : Compilation) : Outcome (List Str) :=
  let jobSize := c.jobs.length
  if jobSize = 0 then .throws ("compilation contains no job:\n".toList ++ c.jobsText ++ "\n".toList)
  else
    let offload := if jobSize > 1 then c.offloadActions.any id else false
    if jobSize > 1 ∧ offload = false then
      .throws ("compilation contains multiple jobs:\n".toList ++ c.jobsText ++ "\n".toList)
    else
      match c.jobs with
      | [] => .ub
      | job :: _ =>
        if !job.isCommand then
          .throws ("compilation job does not contain correct command:\n".toList ++ c.jobsText
            ++ "\n".toList)
        else if job.creator ≠ "clang".toList then
          .throws "expected a command for clang compiler".toList
        else .ok job.arguments

/-- The loop of `Driver.cpp:195-201`; reading past the end of the vector is undefined behaviour. -/
def argvLoop (commandLine : List Str) (cmdIndex stop : Nat) (argv : List Str) :
    Outcome (List Str) :=
  if cmdIndex = stop then .ok argv
  else
    match _h : commandLine[cmdIndex]? with
    | none => .ub
    | some arg =>
      argvLoop commandLine (cmdIndex + 1) stop
        (if arg ≠ "-gmodules".toList then argv ++ [arg] else argv)
termination_by commandLine.length - cmdIndex
decreasing_by
  have := (List.getElem?_eq_some_iff.1 _h).1
  omega

/-- `Driver.cpp:183-202`: the argument vector handed to the clang driver.  With assertions disabled
an empty command line is written out of bounds. -/
def buildArgv (mainExecutable : Str) (commandLine : List Str) (checker : Bool) :
    Outcome (List Str) :=
  match commandLine with
  | [] => .ub
  | _ :: rest => do
    let commandLine := mainExecutable :: rest
    let argv ←
      if checker then
        argvLoop commandLine 1 (commandLine.length - 1) [mainExecutable, "--analyze".toList]
      else argvLoop commandLine 0 commandLine.length []
    pure (argv ++ ["-D__OCLINT__".toList])

/-! ## String replacement -/

/-- `std::string::find(pat, from)`. -/
def findFrom (s pat : Str) (start : Nat) : Option Nat :=
  (List.range (s.length + 1)).find? fun i => decide (start ≤ i) && pat.isPrefixOf (s.drop i)

/-- One turn of the loop `Driver.cpp:279-283` on the variables `orig` and `pos` (`none` is
`npos`). -/
def replaceStep (oldStr newStr : Str) (st : Str × Option Nat) : Str × Option Nat :=
  match st.2 with
  | none => st
  | some pos =>
    let orig := st.1.take pos ++ newStr ++ st.1.drop (pos + oldStr.length)
    (orig, findFrom orig oldStr (pos + newStr.length))

/-- The variables of `stringReplace` after `n` turns of its loop. -/
def replaceIter (oldStr newStr : Str) : Nat → Str × Option Nat → Str × Option Nat
  | 0, st => st
  | n + 1, st => replaceIter oldStr newStr n (replaceStep oldStr newStr st)

/-- `Driver.cpp:275-286`, `stringReplace`, given up after `orig.length + 1` turns (`none`);
`C23_termination` shows that giving up means looping forever. -/
def stringReplace (orig oldStr newStr : Str) : Option Str :=
  let st := replaceIter oldStr newStr (orig.length + 1) (orig, findFrom orig oldStr 0)
  match st.2 with
  | none => some st.1
  | some _ => none

/-! ## Running -/

/-- Mutable state of a run: current directory, the result collector and the rules' own state. -/
structure DriverState (σ : Type) where
  cwd : Str
  collector : ResultCollector
  rules : σ
  deriving DecidableEq

/-- A violation as a rule reports it to its carrier. -/
structure Report where
  path : Str
  startLine : Int
  startColumn : Int
  endLine : Int
  endColumn : Int
  message : Str
  deriving Repr, DecidableEq

/-- The rules of a run. `takeoff` is `RuleBase::takeoff` of one rule on one unit: new rule state and
reported violations, unless it throws. -/
structure Analyzer (U σ : Type) where
  filteredRules : List RuleId
  takeoff : RuleId → σ → U → Outcome (σ × List Report)

variable {U σ : Type}

/-- `Driver.cpp:304-311` and `339-345`: change into the job's directory. -/
def enterDirectory (tc : Toolchain U) (st : DriverState σ) (directory : Str) :
    Outcome (DriverState σ) :=
  match stringReplace directory "\\ ".toList " ".toList with
  | none => .ub
  | some targetDir =>
    match tc.chdir st.cwd targetDir with
    | none =>
      .throws ("Cannot change dictionary into \"".toList ++ targetDir ++ "\", ".toList
        ++ "please make sure the directory exists and you have permission to access!".toList)
    | some cwd => .ok { st with cwd := cwd }

/-- Body of the loops `Driver.cpp:292-328` and `335-363`: compile one job, dispatch its diagnostics.
Returns the context if compilation succeeded. -/
def compileJob (tc : Toolchain U) (mainExecutable : Str) (checker : Bool) (st : DriverState σ)
    (job : Str × CompileCommand) : Outcome (DriverState σ × Option U) := do
  let adjusted := tc.adjust job.2.commandLine job.1
  let st ← enterDirectory tc st job.2.directory
  let argv ← buildArgv mainExecutable adjusted checker
  let cc1 ← getCC1Arguments (tc.build st.cwd argv)
  let r := tc.compile st.cwd cc1
  let st := { st with collector := r.diagnostics.foldl (handleDiagnostic checker) st.collector }
  pure (st, if r.errorOccurred then none else r.context)

/-- `Driver.cpp:288-329`, `constructCompilers`: the contexts of the successful compilers. -/
def constructCompilers (tc : Toolchain U) (mainExecutable : Str) :
    DriverState σ → List U → List (Str × CompileCommand) → Outcome (DriverState σ × List U)
  | st, units, [] => .ok (st, units)
  | st, units, job :: jobs => do
    let r ← compileJob tc mainExecutable false st job
    match r.2 with
    | some u => constructCompilers tc mainExecutable r.1 (units ++ [u]) jobs
    | none => constructCompilers tc mainExecutable r.1 units jobs

/-- `Driver.cpp:331-364`, `invokeClangStaticAnalyzer`. -/
def invokeClangStaticAnalyzer (tc : Toolchain U) (mainExecutable : Str) :
    DriverState σ → List (Str × CompileCommand) → Outcome (DriverState σ)
  | st, [] => .ok st
  | st, job :: jobs => do
    let r ← compileJob tc mainExecutable true st job
    invokeClangStaticAnalyzer tc mainExecutable r.1 jobs

/-- The rule loop `RulesetBasedAnalyzer.cpp:29-32` on one unit. -/
def takeoffAll (a : Analyzer U σ) (u : U) :
    List RuleId → σ → ViolationSet → Outcome (σ × ViolationSet)
  | [], s, set => .ok (s, set)
  | rule :: rules, s, set => do
    let r ← a.takeoff rule s u
    takeoffAll a u rules r.1
      (r.2.foldl
        (fun set v => carrierAddViolation set v.path v.startLine v.startColumn v.endLine v.endColumn
          (some rule) v.message) set)

/-- `RulesetBasedAnalyzer.cpp:21-37`, `analyze`. -/
def analyze (a : Analyzer U σ) : List U → DriverState σ → Outcome (DriverState σ)
  | [], st => .ok st
  | u :: units, st => do
    let r ← takeoffAll a u a.filteredRules st.rules []
    analyze a units { st with rules := r.1, collector := st.collector.add r.2 }

/-- `Driver.cpp:366-390`, `invoke`; `preprocess` and `postprocess` do nothing for this analyzer. -/
def invoke (tc : Toolchain U) (mainExecutable : Str) (a : Analyzer U σ) (st : DriverState σ)
    (jobs : List (Str × CompileCommand)) : Outcome (DriverState σ) := do
  let r ← constructCompilers tc mainExecutable st [] jobs
  analyze a r.2 r.1

/-- The per-file loop `Driver.cpp:407-411`. -/
def invokeEach (tc : Toolchain U) (mainExecutable : Str) (a : Analyzer U σ) :
    DriverState σ → List (Str × CompileCommand) → Outcome (DriverState σ)
  | st, [] => .ok st
  | st, job :: jobs => do
    let st ← invoke tc mainExecutable a st [job]
    invokeEach tc mainExecutable a st jobs

/-- `Driver.cpp:392-418`, `Driver::run`. -/
def driverRun (tc : Toolchain U) (mainExecutable : Str) (globalAnalysis clangChecker : Bool)
    (a : Analyzer U σ) (st : DriverState σ) (db : Str → List CompileCommand)
    (sourcePaths : List Str) : Outcome (DriverState σ) := do
  let jobs := constructCompileCommands tc.absolutePath db sourcePaths
  let st ←
    if globalAnalysis then invoke tc mainExecutable a st jobs
    else invokeEach tc mainExecutable a st jobs
  if clangChecker then invokeClangStaticAnalyzer tc mainExecutable st jobs else pure st

end Oclint
