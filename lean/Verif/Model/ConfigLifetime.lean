import Verif.Model.Options

/-!
# Lifetime of configuration texts

Models `oclint-driver/lib/ConfigFile.cpp:79-107` and `oclint-driver/lib/Options.cpp:141-173` once
more, now with the memory the texts are in.  The text members of `ConfigFile` are `llvm::StringRef`s
(`ConfigFile.h:17-18` and `33-38`), that is, pointers without ownership.  They are filled by
`llvm::yaml::Input`, with pointers into the file buffer or, for quoted texts with escapes, into the
allocator of the input.  Both are local variables of the constructor.

From LLVM only this is taken: a `StringRef` filled by the YAML reader points into one of the two.
-/

namespace Oclint

/-- The two pieces of memory: `buffer` (`ConfigFile.cpp:85`) and the allocator of `yin`
(`ConfigFile.cpp:100`). -/
inductive Region where
  | buffer | input
  deriving Repr, DecidableEq

/-- An `llvm::StringRef`: where it points, and the text that was there when it was made. -/
structure TextRef where
  region : Region
  text : Str
  deriving Repr, DecidableEq

/-- `ConfigFile.h:32-44` with unowned texts. -/
structure RefConfig where
  rules : List TextRef
  disableRules : List TextRef
  rulePaths : List TextRef
  ruleConfigurations : List (TextRef × TextRef)
  output : TextRef
  reportType : TextRef
  maxP1 : Int
  maxP2 : Int
  maxP3 : Int
  clangChecker : TriState
  allowDuplicatedViolations : TriState
  enableGlobalAnalysis : TriState
  deriving Repr, DecidableEq

/-- A default constructed `StringRef`: no characters, wherever it points. -/
def TextRef.null : TextRef := ⟨.buffer, []⟩

/-- `ConfigFile.cpp:79-80` and `ConfigFile.h:42-44`: member initialisers. -/
def RefConfig.initial : RefConfig :=
  { rules := [], disableRules := [], rulePaths := [], ruleConfigurations := [],
    output := .null, reportType := .null, maxP1 := INT_MIN, maxP2 := INT_MIN, maxP3 := INT_MIN,
    clangChecker := .UNDEFINED, allowDuplicatedViolations := .UNDEFINED,
    enableGlobalAnalysis := .UNDEFINED }

/-- `ConfigFile.cpp:79-107`, the constructor: the members, and the regions alive when it has
returned.  `yin` (line 100) goes at the end of its block, `buffer` (line 85) at the end of the
body. -/
def RefConfig.read (fs : Str → Option Str) (yaml : Str → RefConfig) (path : Str) :
    RefConfig × List Region :=
  match fs path with
  | none => (.initial, [])
  | some content =>
    if content.all (fun c => decide (c ∈ configBlanks)) then
      (.initial, [Region.buffer].erase .buffer)
    else (yaml content, ([Region.input, Region.buffer].erase .input).erase .buffer)

/-- `StringRef::str()`: copies the characters; none are read when there are none. -/
def readText (alive : List Region) (t : TextRef) : Outcome Str :=
  if t.text = [] then .ok []
  else if t.region ∈ alive then .ok t.text
  else .ub

/-- The loops `Options.cpp:148-151`, `153-156` and `159-162`. -/
def readTexts (alive : List Region) : List TextRef → Outcome (List Str)
  | [] => .ok []
  | t :: ts => do
    let x ← readText alive t
    let xs ← readTexts alive ts
    pure (x :: xs)

/-- The loop `Options.cpp:144-147`. -/
def readPairs (alive : List Region) (c : Configurations) :
    List (TextRef × TextRef) → Outcome Configurations
  | [] => .ok c
  | (k, v) :: rest => do
    let key ← readText alive k
    let value ← readText alive v
    readPairs alive (c.addConfiguration key value) rest

/-- `Options.cpp:141-173`, `processConfigFile`, in the order of the code. -/
def applyRefConfig (alive : List Region) (st : OptionState) (config : RefConfig) :
    Outcome OptionState := do
  let configurations ← readPairs alive st.configurations config.ruleConfigurations
  let rulePaths ← readTexts alive config.rulePaths
  let enable ← readTexts alive config.rules
  let disable ← readTexts alive config.disableRules
  let output ← readText alive config.output
  let reportType ← readText alive config.reportType
  pure
    { argOutput := updateArgIfSet st.argOutput (createOptionalString output)
      argReportType := updateArgIfSet st.argReportType (createOptionalString reportType)
      argRulesPath := st.argRulesPath ++ rulePaths
      argMaxP1 := updateArgIfSet st.argMaxP1 (createOptionalInt config.maxP1)
      argMaxP2 := updateArgIfSet st.argMaxP2 (createOptionalInt config.maxP2)
      argMaxP3 := updateArgIfSet st.argMaxP3 (createOptionalInt config.maxP3)
      argGlobalAnalysis :=
        updateArgIfSet st.argGlobalAnalysis (createOptionalBool config.enableGlobalAnalysis)
      argClangChecker := updateArgIfSet st.argClangChecker (createOptionalBool config.clangChecker)
      argDuplications :=
        updateArgIfSet st.argDuplications (createOptionalBool config.allowDuplicatedViolations)
      filter := (st.filter.enableRules enable).disableRules disable
      workingPath := st.workingPath
      configurations := configurations }

/-- `Options.cpp:141-173`, `processConfigFile`. -/
def processRefConfig (fs : Str → Option Str) (yaml : Str → RefConfig) (st : OptionState)
    (path : Str) : Outcome OptionState :=
  applyRefConfig (RefConfig.read fs yaml path).2 st (RefConfig.read fs yaml path).1

/-- `Options.cpp:175-179`, `processConfigFiles`. -/
def processRefConfigFiles (fs : Str → Option Str) (yaml : Str → RefConfig) :
    List Str → OptionState → Outcome OptionState
  | [], st => .ok st
  | path :: paths, st => do
    let st ← processRefConfig fs yaml st path
    processRefConfigFiles fs yaml paths st

/-- `Options.cpp:206-224`, `oclint::option::process`; the YAML reader of `e` is not used. -/
def processRefOptions (e : Env) (yaml : Str → RefConfig) (cli : CommandLine) :
    Outcome OptionState := do
  let st := preserveWorkingPath e (OptionState.afterParsing cli)
  let st ← processRefConfigFiles e.fs yaml (configFilePaths e st) st
  let configurations ← consumeRuleConfigurations cli.ruleConfiguration st.configurations
  pure
    { st with
      configurations := configurations
      filter := (st.filter.enableRules cli.enabledRules).disableRules cli.disabledRules }

end Oclint
