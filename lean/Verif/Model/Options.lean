import Verif.Model.RulesetFilter

/-!
# Command line options and configuration files

Models `oclint-driver/lib/Options.cpp` and `oclint-driver/lib/ConfigFile.cpp`.

Not modelled: the LLVM command line parser (its result is the `CommandLine` record), the YAML
parser (a parameter), `preserveExecutablePath` (its result `binPath` is part of the environment; see `Model/Install`).
Simplification: the texts of configuration files stay readable after parsing.  In the code they do
not; see `Model/ConfigLifetime.lean`.
-/

namespace Oclint

/-! ## Configuration files -/

/-- `ConfigFile.h:27`, `enum TriState`. -/
inductive TriState where
  | FALSE | TRUE | UNDEFINED
  deriving Repr, DecidableEq

/-- `ConfigFile.h:32-44`, the members of `ConfigFile`. -/
structure ConfigFile where
  rules : List Str
  disableRules : List Str
  rulePaths : List Str
  ruleConfigurations : List (Str × Str)
  output : Str
  reportType : Str
  maxP1 : Int
  maxP2 : Int
  maxP3 : Int
  clangChecker : TriState
  allowDuplicatedViolations : TriState
  enableGlobalAnalysis : TriState
  deriving Repr, DecidableEq

/-- `INT_MIN`. -/
def INT_MIN : Int := -2147483648

/-- `ConfigFile.cpp:79-80` and `ConfigFile.h:42-44`: member initialisers. -/
def ConfigFile.initial : ConfigFile :=
  { rules := [], disableRules := [], rulePaths := [], ruleConfigurations := [], output := [],
    reportType := [], maxP1 := INT_MIN, maxP2 := INT_MIN, maxP3 := INT_MIN,
    clangChecker := .UNDEFINED, allowDuplicatedViolations := .UNDEFINED,
    enableGlobalAnalysis := .UNDEFINED }

/-- The blanks of `ConfigFile.cpp:91`. -/
def configBlanks : List Char := [' ', '\t', '\x0c', '\x0b', '\n', '\r']

/-- `ConfigFile.cpp:79-107`, the constructor.  `fs` is the file system, `yaml` the effect of
`yin >> *this` on freshly initialised members. -/
def ConfigFile.read (fs : Str → Option Str) (yaml : Str → ConfigFile) (path : Str) : ConfigFile :=
  match fs path with
  | none => ConfigFile.initial
  | some content =>
    if content.all (fun c => decide (c ∈ configBlanks)) then ConfigFile.initial else yaml content

/-- `ConfigFile.cpp:134-138`, `createOptionalString`. -/
def createOptionalString (s : Str) : Option Str := if s.length ≠ 0 then some s else none

/-- `ConfigFile.cpp:150-153`, `createOptionalInt`. -/
def createOptionalInt (v : Int) : Option Int := if v = INT_MIN then none else some v

/-- `ConfigFile.cpp:170-182`, `createOptionalBool`. -/
def createOptionalBool : TriState → Option Bool
  | .FALSE => some false
  | .TRUE => some true
  | .UNDEFINED => none

/-! ## Option state -/

/-- An `llvm::cl::opt<T>`: current value and number of occurrences on the command line. -/
structure ClOpt (α : Type) where
  value : α
  occurrences : Nat
  deriving Repr, DecidableEq

/-- `Options.cpp:116-123`, `updateArgIfSet`. -/
def updateArgIfSet {α : Type} (arg : ClOpt α) (cfg : Option α) : ClOpt α :=
  match cfg with
  | some v => if arg.occurrences = 0 then { arg with value := v } else arg
  | none => arg

/-- What the command line parser delivers; `none` means the option does not occur. -/
structure CommandLine where
  output : Option Str := none
  reportType : Option Str := none
  rulesPath : List Str := []
  ruleConfiguration : List Str := []
  enabledRules : List Str := []
  disabledRules : List Str := []
  listEnabledRules : Bool := false
  maxP1 : Option Int := none
  maxP2 : Option Int := none
  maxP3 : Option Int := none
  globalAnalysis : Option Bool := none
  clangChecker : Option Bool := none
  duplications : Option Bool := none
  /-- `Options.cpp:93-97` -/
  verbose : Bool := false
  deriving Repr, DecidableEq

/-- The static variables of `Options.cpp:25-114` together with the rule configuration map. -/
structure OptionState where
  argOutput : ClOpt Str
  argReportType : ClOpt Str
  argRulesPath : List Str
  argMaxP1 : ClOpt Int
  argMaxP2 : ClOpt Int
  argMaxP3 : ClOpt Int
  argGlobalAnalysis : ClOpt Bool
  argClangChecker : ClOpt Bool
  argDuplications : ClOpt Bool
  filter : RulesetFilter
  workingPath : Str
  configurations : Configurations
  deriving Repr, DecidableEq

/-- An option with its `llvm::cl::init` default. -/
def clInit {α : Type} (given : Option α) (default : α) : ClOpt α :=
  match given with
  | some v => ⟨v, 1⟩
  | none => ⟨default, 0⟩

/-- `Options.cpp:25-114`: values after command line parsing, defaults from the `cl::init`s. -/
def OptionState.afterParsing (cli : CommandLine) : OptionState :=
  { argOutput := clInit cli.output "-".toList
    argReportType := clInit cli.reportType "text".toList
    argRulesPath := cli.rulesPath
    argMaxP1 := clInit cli.maxP1 0
    argMaxP2 := clInit cli.maxP2 10
    argMaxP3 := clInit cli.maxP3 20
    argGlobalAnalysis := clInit cli.globalAnalysis false
    argClangChecker := clInit cli.clangChecker false
    argDuplications := clInit cli.duplications false
    filter := RulesetFilter.empty
    workingPath := []
    configurations := none }

/-- The environment of the process: working directory, `HOME`, directory of the executable,
file system and YAML parser. -/
structure Env where
  cwd : Str
  home : Option Str
  binPath : Str
  fs : Str → Option Str
  yaml : Str → ConfigFile

/-- `Options.cpp:251-255`, `homePath`. -/
def Env.homePath (e : Env) : Str := e.home.getD []

/-- `Options.cpp:231-234`, `installPrefix`. -/
def Env.installPrefix (e : Env) : Str := e.binPath ++ "/..".toList

/-- `Options.cpp:241-244`, `libPath`. -/
def Env.libPath (e : Env) : Str := e.installPrefix ++ "/lib".toList

/-- `Options.cpp:246-249`, `etcPath`. -/
def Env.etcPath (e : Env) : Str := e.installPrefix ++ "/etc".toList

/-- `Options.cpp:181-188`, `preserveWorkingPath`: `getcwd` into a 300 byte buffer fails when path
and terminator do not fit. -/
def preserveWorkingPath (e : Env) (st : OptionState) : OptionState :=
  if e.cwd.length + 1 ≤ 300 then { st with workingPath := e.cwd } else st

/-- `Options.cpp:130-139`, `configFilePaths`. -/
def configFilePaths (e : Env) (st : OptionState) : List Str :=
  [e.etcPath ++ "/oclint".toList]
    ++ (if e.homePath.length > 0 then [e.homePath ++ "/.oclint".toList] else [])
    ++ [st.workingPath ++ "/.oclint".toList]

/-- `Options.cpp:141-173`, `processConfigFile`, for already read contents. -/
def applyConfigFile (st : OptionState) (config : ConfigFile) : OptionState :=
  { argOutput := updateArgIfSet st.argOutput (createOptionalString config.output)
    argReportType := updateArgIfSet st.argReportType (createOptionalString config.reportType)
    argRulesPath := st.argRulesPath ++ config.rulePaths
    argMaxP1 := updateArgIfSet st.argMaxP1 (createOptionalInt config.maxP1)
    argMaxP2 := updateArgIfSet st.argMaxP2 (createOptionalInt config.maxP2)
    argMaxP3 := updateArgIfSet st.argMaxP3 (createOptionalInt config.maxP3)
    argGlobalAnalysis :=
      updateArgIfSet st.argGlobalAnalysis (createOptionalBool config.enableGlobalAnalysis)
    argClangChecker := updateArgIfSet st.argClangChecker (createOptionalBool config.clangChecker)
    argDuplications :=
      updateArgIfSet st.argDuplications (createOptionalBool config.allowDuplicatedViolations)
    filter := (st.filter.enableRules config.rules).disableRules config.disableRules
    workingPath := st.workingPath
    configurations :=
      config.ruleConfigurations.foldl (fun c kv => c.addConfiguration kv.1 kv.2)
        st.configurations }

/-- `Options.cpp:175-179`, `processConfigFiles`. -/
def processConfigFiles (e : Env) (st : OptionState) : OptionState :=
  (configFilePaths e st).foldl (fun st path => applyConfigFile st (ConfigFile.read e.fs e.yaml path))
    st

/-! ## `-rc` arguments -/

/-- Conversion of an integer to `size_t`. -/
def toSizeT (z : Int) : Nat := (z % 18446744073709551616).toNat

/-- `std::string::substr(pos, len)`. -/
def substr (s : Str) (pos len : Nat) : Outcome Str :=
  if pos > s.length then .throws "basic_string::substr".toList else .ok ((s.drop pos).take len)

/-- Conversion of an integer to a 32-bit `int` (two's complement). -/
def toInt32 (z : Int) : Int := (z + 2147483648) % 4294967296 - 2147483648

/-- `std::string::find_last_of(c)`; `npos` is -1. -/
def findLastOf (c : Char) (s : Str) : Int :=
  match s with
  | [] => -1
  | x :: xs =>
    let r := findLastOf c xs
    if r ≥ 0 then r + 1 else if x = c then 0 else -1

/-- Body of the loop `Options.cpp:212-220`: splitting one `-rc` argument.  The position is stored into an
`int`, so it is cut to 32 bits, and adding one to the greatest `int` is undefined behaviour. -/
def splitRuleConfiguration (configuration : Str) : Outcome (Str × Str) := do
  let indexOfSeparator := toInt32 (findLastOf '=' configuration)
  let key ← substr configuration 0 (toSizeT indexOfSeparator)
  if indexOfSeparator = 2147483647 then .ub
  else
    let value ← substr configuration (toSizeT (indexOfSeparator + 1))
      (toSizeT ((configuration.length : Int) - indexOfSeparator - 1))
    pure (key, value)

/-- The loop `Options.cpp:212-220`. -/
def consumeRuleConfigurations (args : List Str) (c : Configurations) : Outcome Configurations :=
  args.foldlM
    (fun c arg => do
      let kv ← splitRuleConfiguration arg
      pure (c.addConfiguration kv.1 kv.2))
    c

/-- `Options.cpp:206-224`, `oclint::option::process`. -/
def processOptions (e : Env) (cli : CommandLine) : Outcome OptionState := do
  let st := preserveWorkingPath e (OptionState.afterParsing cli)
  let st := processConfigFiles e st
  let configurations ← consumeRuleConfigurations cli.ruleConfiguration st.configurations
  pure
    { st with
      configurations := configurations
      filter := (st.filter.enableRules cli.enabledRules).disableRules cli.disabledRules }

/-! ## Getters -/

/-- `Options.cpp:257-266`, `rulesPath`. -/
def rulesPath (e : Env) (st : OptionState) : List Str :=
  if st.argRulesPath.length > 0 then st.argRulesPath
  else [e.libPath ++ "/oclint/rules".toList]

/-- `Options.cpp:268-271`, `reporterPath`. -/
def reporterPath (e : Env) : Str := e.libPath ++ "/oclint/reporters".toList

/-- `Options.cpp:273-276`, `hasOutputPath`. -/
def hasOutputPath (st : OptionState) : Bool := decide (st.argOutput.value ≠ "-".toList)

/-- `Options.cpp:278-281`, `outputPath`; `at(0)` throws on an empty string. -/
def outputPath (st : OptionState) : Outcome Str :=
  match st.argOutput.value with
  | [] => .throws "basic_string::at".toList
  | c :: cs =>
    if c = '/' then .ok (c :: cs) else .ok (st.workingPath ++ "/".toList ++ (c :: cs))

end Oclint
