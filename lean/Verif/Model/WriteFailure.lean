import Verif.Model.Console

/-!
# Writing to a device that is full

Models `oclint-driver/main.cpp:51-83` and `187-218` once more, now with streams whose device takes only
so many characters.  `std::cout` and `std::ofstream` report a failed write in their state and write
nothing after it; nothing in `main.cpp` or in the reporters looks at that state.

Simplifications: a stream has no buffer of its own, so a write fails when it happens and not when the
stream is flushed or closed; standard error and `llvm::outs()` take everything.
-/

namespace Oclint

/-- A `std::ostream`: what has arrived at the device and whether `good()`. -/
structure OStream where
  arrived : Str
  good : Bool
  deriving Repr, DecidableEq

/-- How many characters a device takes; `none` for any number.  The device of the file with a name, or of
standard output. -/
abbrev Room := Option Str → Option Nat

/-- How much of a text still fits. -/
def fits (room : Option Nat) (arrived : Str) (piece : Str) : Nat :=
  match room with
  | none => piece.length
  | some n => min piece.length (n - arrived.length)

/-- `out << piece`: the part that fits arrives; if that is not everything, the stream is bad. -/
def OStream.put (room : Option Nat) (s : OStream) (piece : Str) : OStream :=
  if s.good then
    ⟨s.arrived ++ piece.take (fits room s.arrived piece), decide (fits room s.arrived piece = piece.length)⟩
  else s

/-- `out << a << b << …`. -/
def OStream.puts (room : Option Nat) (s : OStream) (pieces : List Str) : OStream :=
  pieces.foldl (OStream.put room) s

/-- A stream nothing has been written to. -/
def OStream.fresh : OStream := ⟨[], true⟩

/-- `std::cout`, what went to standard error and through `llvm::outs()`, and the report files. -/
structure Devices where
  cout : OStream
  err : Str
  log : Str
  files : List (Str × OStream)
  deriving Repr, DecidableEq

/-- `main.cpp:85-88`, `printErrorLine`. -/
def Devices.complain (d : Devices) (errorMessage : Str) : Devices :=
  { d with err := d.err ++ ['\n'] ++ "oclint: error: ".toList ++ errorMessage ++ ['\n'] }

/-- `main.cpp:75-83`, `listRules`. -/
def listRulesDevice (room : Room) (d : Devices) (filter : RulesetFilter) (reg : Registry)
    (identifierOf : RuleId → Str) : Outcome Devices := do
  let names ← filter.filteredRuleNames reg identifierOf
  let out := d.cout.puts (room none) ["Enabled rules:".toList, ['\n']]
  let out := names.foldl (fun o n => o.puts (room none) ["- ".toList, n, ['\n']]) out
  pure { d with cout := out.put (room none) ['\n'] }

/-- `main.cpp:90-99`, `printViolationsExceedThresholdError`. -/
def exceedErrorDevice (d : Devices) (priorityOf : RuleId → Int) (st : OptionState)
    (results : Answers) : Outcome Devices := do
  let d := d.complain "violations exceed threshold".toList
  let n1 ← numberOfViolationsWithPriority priorityOf (results .violations) 1
  let n2 ← numberOfViolationsWithPriority priorityOf (results .violations) 2
  let n3 ← numberOfViolationsWithPriority priorityOf (results .violations) 3
  pure { d with err := d.err
    ++ "P1=".toList ++ toStringInt n1 ++ "[".toList ++ toStringInt st.argMaxP1.value ++ "] ".toList
    ++ "P2=".toList ++ toStringInt n2 ++ "[".toList ++ toStringInt st.argMaxP2.value ++ "] ".toList
    ++ "P3=".toList ++ toStringInt n3 ++ "[".toList ++ toStringInt st.argMaxP3.value ++ "] ".toList
    ++ ['\n'] }

variable {U σ κ : Type}

/-- `main.cpp:153-167`, `handleExit`. -/
def handleExitDevice (priorityOf : RuleId → Int) (st : OptionState) (results : Answers)
    (d : Devices) : Outcome (Devices × ExitCode) :=
  if hasAny (results .errors) then .ok (d, .COMPILATION_ERRORS)
  else do
    let exceed ← exceedThreshold priorityOf st results
    if exceed then do
      let d ← exceedErrorDevice d priorityOf st results
      pure (d, .VIOLATIONS_EXCEED_THRESHOLD)
    else pure (d, .SUCCESS)

/-- The reporter writes its pieces to the stream `outStream` gave (`main.cpp:51-64`, `208-210`).
`disposeOutStream` (66-73) closes the file and does not look whether that worked. -/
def reportTo (room : Room) (d : Devices) (dest : Option Str) (pieces : List Str) : Devices :=
  match dest with
  | none => { d with cout := d.cout.puts (room none) pieces }
  | some file => { d with files := d.files ++ [(file, OStream.fresh.puts (room (some file)) pieces)] }

/-- `main.cpp:206-216`: the reporting `try` block with its handler. -/
def reportDevice (m : Machine U σ κ) (room : Room) (pieces : Str → Answers → List Str)
    (st : OptionState) (reporter : Str) (results : Answers) (d : Devices) :
    Outcome (Devices × Option ExitCode) :=
  match outStream m.canOpen st with
  | .ub => .ub
  | .throws w => .ok (d.complain w, some .ERROR_WHILE_REPORTING)
  | .ok dest =>
    let d := reportTo room d dest (pieces reporter results)
    match m.report reporter results with
    | .ub => .ub
    | .throws w => .ok (d.complain w, some .ERROR_WHILE_REPORTING)
    | .ok () => .ok (d, none)

/-- `main.cpp:204-218`: `main` after the analysis. -/
def finishDevice [DecidableEq κ] (m : Machine U σ κ) (room : Room) (pieces : Str → Answers → List Str)
    (st : OptionState) (reporter : Str) (collector : ResultCollector) (d : Devices) :
    Outcome (Devices × ExitCode) :=
  let results := getResults m.hash st.argDuplications.value collector
  match reportDevice m room pieces st reporter results d with
  | .ub => .ub
  | .throws w => .throws w
  | .ok (d, some status) => .ok (d, status)
  | .ok (d, none) => handleExitDevice m.priorityOf st results d

/-- `main.cpp:192-218`: `main` after the list of rules. -/
def analysisDevice [DecidableEq κ] (m : Machine U σ κ) (v : Voices U) (room : Room)
    (pieces : Str → Answers → List Str) (st : OptionState) (verbose : Bool) (rules : List RuleId)
    (reporter : Str) (d : Devices) : Outcome (Devices × ExitCode) :=
  let r := verboseRun verbose v.mainFile m.toolchain m.mainExecutable st.argGlobalAnalysis.value
    st.argClangChecker.value ⟨rules, m.takeoff⟩ ⟨m.env.cwd, ResultCollector.empty, m.initialRules⟩
    m.db m.sources
  let d := { d with err := d.err ++ r.1, log := d.log ++ r.2.said }
  match r.2.result with
  | .ub => .ub
  | .throws w => .ok (d.complain w, .ERROR_WHILE_PROCESSING)
  | .ok ds => finishDevice m room pieces st reporter ds.collector d

/-- `main.cpp:187-190`. -/
def listDevice (m : Machine U σ κ) (room : Room) (st : OptionState) (asked : Bool)
    (registry : Registry) (d : Devices) : Outcome Devices :=
  if asked then listRulesDevice room d st.filter registry m.ruleIdentifier else .ok d

/-- `main.cpp:187-218`: `main` after `prepare`. -/
def runDevice [DecidableEq κ] (m : Machine U σ κ) (v : Voices U) (room : Room)
    (pieces : Str → Answers → List Str) (st : OptionState) (cli : CommandLine) (registry : Registry)
    (reporter : Str) (d : Devices) : Outcome (Devices × ExitCode) := do
  let d ← listDevice m room st cli.listEnabledRules registry d
  let rules ← st.filter.filteredRules registry m.ruleIdentifier
  analysisDevice m v room pieces st cli.verbose rules reporter d

/-- `main.cpp:169-219`, `main`.  Before `prepare` is done, only standard error is written. -/
def mainDevice [DecidableEq κ] (m : Machine U σ κ) (v : Voices U) (room : Room)
    (pieces : Str → Answers → List Str) (cli : Option CommandLine) : Outcome (Devices × ExitCode) :=
  match cli with
  | none => .ok (⟨OStream.fresh, v.parserError, [], []⟩, .COMMON_OPTIONS_PARSER_ERRORS)
  | some cli => do
    let st ← processOptions m.env cli
    match prepareConsole m v st (Console.empty.toErr v.configErrors) with
    | .ub => .ub
    | .throws w => .throws w
    | .ok (c, .inl status) => .ok (⟨OStream.fresh, c.err, [], []⟩, status)
    | .ok (c, .inr (registry, reporter)) =>
      runDevice m v room pieces st cli registry reporter ⟨OStream.fresh, c.err, [], []⟩

end Oclint
