import Verif.Model.Driver

/-!
# What the driver writes while it runs

Models `oclint-driver/lib/Driver.cpp` and `RulesetBasedAnalyzer.cpp` once more, now with the lines that
`-verbose` writes to `llvm::outs()` (`oclint-driver/lib/Logger.cpp:20-31`, `Logger.h:29-30`) and the
line about files without compile command.  Simplification: this is the release build, without the
lines of `LOG_DEBUG`.
-/

namespace Oclint

/-- A piece of code that writes to a stream.  What was written stays written when it throws. -/
structure Loud (α : Type) where
  said : Str
  result : Outcome α
  deriving Repr, DecidableEq

namespace Loud

def bind {α β : Type} (x : Loud α) (f : α → Loud β) : Loud β :=
  match x.result with
  | .ok a => ⟨x.said ++ (f a).said, (f a).result⟩
  | .throws w => ⟨x.said, .throws w⟩
  | .ub => ⟨x.said, .ub⟩

instance : Monad Loud where
  pure a := ⟨[], .ok a⟩
  bind := bind

/-- A piece of code that writes nothing. -/
def quiet {α : Type} (x : Outcome α) : Loud α := ⟨[], x⟩

end Loud

/-- `LOG_VERBOSE` (`Logger.cpp:20-31`, `Logger.h:29`). -/
def logVerbose (on : Bool) (msg : Str) : Loud Unit := ⟨if on then msg else [], .ok ()⟩

/-- `LOG_VERBOSE_LINE` (`Logger.h:30`). -/
def logVerboseLine (on : Bool) (msg : Str) : Loud Unit := logVerbose on (msg ++ "\n".toList)

variable {U σ : Type}

/-- `Driver.cpp:318-326` and `353-360`: the word for a successful compiler, or the other one. -/
def verdict (unit : Option U) (good bad : Str) : Str :=
  match unit with
  | some _ => good
  | none => bad

/-- `Driver.cpp:288-329`, `constructCompilers`. -/
def verboseConstructCompilers (on : Bool) (tc : Toolchain U) (mainExecutable : Str) :
    DriverState σ → List U → List (Str × CompileCommand) → Loud (DriverState σ × List U)
  | st, units, [] => pure (st, units)
  | st, units, job :: jobs => do
    logVerbose on "Compiling ".toList
    logVerbose on job.1
    logVerboseLine on " ...".toList
    let r ← Loud.quiet (compileJob tc mainExecutable false st job)
    logVerbose on (verdict r.2 " - Success".toList " - Failed".toList)
    logVerboseLine on []
    verboseConstructCompilers on tc mainExecutable r.1 (units ++ r.2.toList) jobs

/-- `Driver.cpp:331-364`, `invokeClangStaticAnalyzer`. -/
def verboseStaticAnalyzer (on : Bool) (tc : Toolchain U) (mainExecutable : Str) :
    DriverState σ → List (Str × CompileCommand) → Loud (DriverState σ)
  | st, [] => pure st
  | st, job :: jobs => do
    logVerbose on "Clang Static Analyzer ".toList
    logVerbose on job.1
    let r ← Loud.quiet (compileJob tc mainExecutable true st job)
    logVerbose on (verdict r.2 " - Done".toList " - Finished with Failure".toList)
    logVerboseLine on []
    verboseStaticAnalyzer on tc mainExecutable r.1 jobs

/-- `RulesetBasedAnalyzer.cpp:21-37`, `analyze`; `mainFile` is `RuleCarrier::getMainFilePath`
(`RuleCarrier.cpp:24-29`). -/
def verboseAnalyze (on : Bool) (mainFile : U → Str) (a : Analyzer U σ) :
    List U → DriverState σ → Loud (DriverState σ)
  | [], st => pure st
  | u :: units, st => do
    logVerbose on "Analyzing ".toList
    logVerbose on (mainFile u)
    let r ← Loud.quiet (takeoffAll a u a.filteredRules st.rules [])
    let st := { st with rules := r.1, collector := st.collector.add r.2 }
    logVerboseLine on " - Done".toList
    verboseAnalyze on mainFile a units st

/-- `Driver.cpp:366-390`, `invoke`. -/
def verboseInvoke (on : Bool) (mainFile : U → Str) (tc : Toolchain U) (mainExecutable : Str)
    (a : Analyzer U σ) (st : DriverState σ) (jobs : List (Str × CompileCommand)) :
    Loud (DriverState σ) := do
  let r ← verboseConstructCompilers on tc mainExecutable st [] jobs
  verboseAnalyze on mainFile a r.2 r.1

/-- The per-file loop `Driver.cpp:407-411`. -/
def verboseInvokeEach (on : Bool) (mainFile : U → Str) (tc : Toolchain U) (mainExecutable : Str)
    (a : Analyzer U σ) : DriverState σ → List (Str × CompileCommand) → Loud (DriverState σ)
  | st, [] => pure st
  | st, job :: jobs => do
    let st ← verboseInvoke on mainFile tc mainExecutable a st [job]
    verboseInvokeEach on mainFile tc mainExecutable a st jobs

/-- `Driver.cpp:401-412`. -/
def verboseBothModes (on : Bool) (mainFile : U → Str) (tc : Toolchain U) (mainExecutable : Str)
    (globalAnalysis : Bool) (a : Analyzer U σ) (st : DriverState σ)
    (jobs : List (Str × CompileCommand)) : Loud (DriverState σ) :=
  if globalAnalysis then verboseInvoke on mainFile tc mainExecutable a st jobs
  else verboseInvokeEach on mainFile tc mainExecutable a st jobs

/-- `Driver.cpp:414-417`. -/
def verboseChecker (on : Bool) (tc : Toolchain U) (mainExecutable : Str) (clangChecker : Bool)
    (st : DriverState σ) (jobs : List (Str × CompileCommand)) : Loud (DriverState σ) :=
  if clangChecker then verboseStaticAnalyzer on tc mainExecutable st jobs else pure st

/-- `Driver.cpp:101-121`, `constructCompileCommands`: the jobs and what is written to
`llvm::errs()`. -/
def commandsAndSkips (absolutePath : Str → Str) (db : Str → List CompileCommand)
    (sourcePaths : List Str) : List (Str × CompileCommand) × Str :=
  sourcePaths.foldl
    (fun acc sourcePath =>
      let filePath := absolutePath sourcePath
      let cmds := db filePath
      if cmds.isEmpty then
        (acc.1, acc.2 ++ "Skipping ".toList ++ filePath ++ ". Compile command not found.\n".toList)
      else (cmds.foldl (fun acc cmd => acc ++ [(filePath, cmd)]) acc.1, acc.2))
    ([], [])

/-- `Driver.cpp:392-418`, `Driver::run`: what is written to `llvm::errs()` before anything is compiled,
and the rest. -/
def verboseRun (on : Bool) (mainFile : U → Str) (tc : Toolchain U) (mainExecutable : Str)
    (globalAnalysis clangChecker : Bool) (a : Analyzer U σ) (st : DriverState σ)
    (db : Str → List CompileCommand) (sourcePaths : List Str) : Str × Loud (DriverState σ) :=
  let c := commandsAndSkips tc.absolutePath db sourcePaths
  (c.2, do
    let st ← verboseBothModes on mainFile tc mainExecutable globalAnalysis a st c.1
    verboseChecker on tc mainExecutable clangChecker st c.1)

end Oclint
