import Verif.Model.Program
import Verif.Model.Text

/-!
# The words of the command line

Models `oclint-driver/lib/Options.cpp:25-97`, the declarations of the options, and `main.cpp:171-178`.
The words are read by `llvm::cl::ParseCommandLineOptions` and
`clang::tooling::CommonOptionsParser::create`, which are third party code; what is taken from them is said
at each definition.  Simplification: of the options that LLVM's libraries declare themselves only those
that print a help text or the version are in the table, so the others count as unknown.
-/

namespace Oclint

/-- The options, in the order of `Options.cpp:29-97`; then those of `CommonOptionsParser`, and those of
`llvm::cl` that print something and end the program. -/
inductive Opt where
  | output | reportType | rulesPath | ruleConfiguration | enabledRules | disabledRules
  | listEnabledRules | maxP1 | maxP2 | maxP3 | globalAnalysis | clangChecker | duplications | verbose
  | buildPath | argsAfter | argsBefore
  | help | version
  deriving Repr, DecidableEq

/-- The names: the first arguments of the declarations. -/
def optionNames : List (Str × Opt) :=
  [(chars! "o", .output),
   (chars! "report-type", .reportType),
   (chars! "R", .rulesPath),
   (chars! "rc", .ruleConfiguration),
   (chars! "rule", .enabledRules),
   (chars! "disable-rule", .disabledRules),
   (chars! "list-enabled-rules", .listEnabledRules),
   (chars! "max-priority-1", .maxP1),
   (chars! "max-priority-2", .maxP2),
   (chars! "max-priority-3", .maxP3),
   (chars! "enable-global-analysis", .globalAnalysis),
   (chars! "enable-clang-static-analyzer", .clangChecker),
   (chars! "allow-duplicated-violations", .duplications),
   (chars! "verbose", .verbose),
   (chars! "p", .buildPath),
   (chars! "extra-arg", .argsAfter),
   (chars! "extra-arg-before", .argsBefore),
   (chars! "help", .help), (chars! "h", .help), (chars! "help-list", .help),
   (chars! "help-hidden", .help), (chars! "help-list-hidden", .help),
   (chars! "version", .version)]

/-- The type arguments of the declarations. -/
inductive OptKind where
  /-- `std::string` -/
  | text
  /-- `bool` -/
  | flag
  /-- `int` -/
  | number
  /-- prints and exits -/
  | printer
  deriving Repr, DecidableEq

/-- `Options.cpp:29-97`: `cl::opt<T>` and `cl::list<T>`. -/
def Opt.kind : Opt → OptKind
  | .output => .text
  | .reportType => .text
  | .rulesPath => .text
  | .ruleConfiguration => .text
  | .enabledRules => .text
  | .disabledRules => .text
  | .listEnabledRules => .flag
  | .maxP1 => .number
  | .maxP2 => .number
  | .maxP3 => .number
  | .globalAnalysis => .flag
  | .clangChecker => .flag
  | .duplications => .flag
  | .verbose => .flag
  | .buildPath => .text
  | .argsAfter => .text
  | .argsBefore => .text
  | .help => .printer
  | .version => .printer

/-- `Options.cpp:29-97`: is it a `cl::list`? -/
def Opt.isList : Opt → Bool
  | .rulesPath => true
  | .ruleConfiguration => true
  | .enabledRules => true
  | .disabledRules => true
  | .argsAfter => true
  | .argsBefore => true
  | _ => false

/-- `Options.cpp:41`: `cl::Prefix`. -/
def Opt.isPrefix : Opt → Bool
  | .rulesPath => true
  | _ => false

/-! ## Values -/

/-- The value of an option. -/
inductive ClValue where
  | text (s : Str)
  | flag (b : Bool)
  | number (z : Int)
  deriving Repr, DecidableEq

/-- `llvm::cl::parser<bool>::parse`. -/
def parseClBool (arg : Str) : Option Bool :=
  if arg = [] ∨ arg = chars! "true" ∨ arg = chars! "TRUE" ∨ arg = chars! "True" ∨ arg = chars! "1" then
    some true
  else if arg = chars! "false" ∨ arg = chars! "FALSE" ∨ arg = chars! "False" ∨ arg = chars! "0" then
    some false
  else none

/-- `GetAutoSenseRadix` of `llvm/lib/Support/StringRef.cpp`: the radix and the text behind its sign. -/
def autoSenseRadix (s : Str) : Nat × Str :=
  match s with
  | [] => (10, s)
  | a :: t =>
    match t with
    | [] => (10, s)
    | b :: u =>
      if a = '0' ∧ (b = 'x' ∨ b = 'X') then (16, u)
      else if a = '0' ∧ (b = 'b' ∨ b = 'B') then (2, u)
      else if a = '0' ∧ b = 'o' then (8, u)
      else if a = '0' ∧ ('0' ≤ b ∧ b ≤ '9') then (8, t)
      else (10, s)

/-- The value of a character as a digit, in `llvm::consumeUnsignedInteger`. -/
def digitValue (c : Char) : Option Nat :=
  if '0' ≤ c ∧ c ≤ '9' then some (c.toNat - 48)
  else if 'a' ≤ c ∧ c ≤ 'z' then some (c.toNat - 97 + 10)
  else if 'A' ≤ c ∧ c ≤ 'Z' then some (c.toNat - 65 + 10)
  else none

/-- The loop of `llvm::consumeUnsignedInteger` with 64 bits, and that nothing is left
(`llvm::getAsUnsignedInteger`). -/
def unsignedLoop (radix : Nat) : Nat → Str → Option Nat
  | acc, [] => some acc
  | acc, c :: cs =>
    match digitValue c with
    | none => none
    | some d =>
      if radix ≤ d then none
      else
        let next := (acc * radix + d) % 2 ^ 64
        if next / radix < acc then none else unsignedLoop radix next cs

/-- `llvm::getAsUnsignedInteger` with radix 0. -/
def parseUnsigned (s : Str) : Option Nat :=
  let r := autoSenseRadix s
  if r.2 = [] then none else unsignedLoop r.1 0 r.2

/-- `llvm::getAsSignedInteger` with radix 0; `long long` has 64 bits. -/
def parseSigned (s : Str) : Option Int :=
  match s with
  | '-' :: t =>
    match parseUnsigned t with
    | some n => if n > 2 ^ 63 then none else some (-(n : Int))
    | none => none
  | s =>
    match parseUnsigned s with
    | some n => if n ≥ 2 ^ 63 then none else some (n : Int)
    | none => none

/-- `StringRef::getAsInteger<int>`, called by `llvm::cl::parser<int>::parse`. -/
def parseClInt (s : Str) : Option Int :=
  match parseSigned s with
  | some z => if z < INT_MIN ∨ z > 2147483647 then none else some z
  | none => none

/-- The value that is given to an option. -/
def parseValue : OptKind → Str → Option ClValue
  | .text, s => some (.text s)
  | .flag, s => (parseClBool s).map .flag
  | .number, s => (parseClInt s).map .number
  | .printer, _ => none

/-! ## Words -/

/-- The variables of the options with the values given so far, the words that are not options, and whether
there was an error (`ErrorParsing`). -/
structure ClState where
  values : Opt → List ClValue
  positionals : List Str
  failed : Bool

def ClState.start : ClState := ⟨fun _ => [], [], false⟩

def ClState.fail (st : ClState) : ClState := { st with failed := true }

/-- `Option::addOccurrence`: a `cl::opt` may only occur once. -/
def provideValue (st : ClState) (o : Opt) (arg : Str) : ClState :=
  if o.isList = false ∧ st.values o ≠ [] then st.fail
  else
    match parseValue o.kind arg with
    | none => st.fail
    | some v => { st with values := fun o' => if o' = o then st.values o ++ [v] else st.values o' }

/-- `CommandLineParser::LookupOption`: a name, or what is before the first equals sign.  With the value if
there is a sign. -/
def lookupOption (arg : Str) : Option (Opt × Option Str) :=
  if arg = [] then none
  else
    match arg.span (fun c => decide (c ≠ '=')) with
    | (_, []) => (optionNames.lookup arg).map fun o => (o, none)
    | (name, _ :: value) => (optionNames.lookup name).map fun o => (o, some value)

/-- `getOptionPred`: the longest beginning of the word that is an option with a prefix. -/
def prefixLoop (arg : Str) : Nat → Option (Opt × Option Str)
  | 0 => none
  | n + 1 =>
    match optionNames.lookup (arg.take (n + 1)) with
    | some o =>
      if o.isPrefix then
        match arg.drop (n + 1) with
        | [] => some (o, none)
        | c :: cs => if c = '=' then none else some (o, some (c :: cs))
      else prefixLoop arg n
    | none => prefixLoop arg n

/-- `HandlePrefixedOrGroupedOption`; no option is grouped. -/
def lookupPrefixed (arg : Str) : Option (Opt × Option Str) :=
  if arg.length = 1 then none else prefixLoop arg arg.length

/-- The word without its dashes: one, and another one if there is. -/
def withoutDashes : Str → Str
  | _ :: '-' :: rest => rest
  | _ :: rest => rest
  | [] => []

/-- Which option a word is. -/
def lookupWord (w : Str) : Option (Opt × Option Str) :=
  match lookupOption (withoutDashes w) with
  | some r => some r
  | none => lookupPrefixed (withoutDashes w)

/-- `argv[i][0] != '-' || argv[i][1] == 0`. -/
def isPositional : Str → Bool
  | [] => true
  | [_] => true
  | c :: _ => decide (c ≠ '-')

/-- The loop of `CommandLineParser::ParseCommandLineOptions` with `ProvideOption`; `none` if the help text
or the version is printed, which ends the program with status 0. -/
def parseWords : ClState → List Str → Option ClState
  | st, [] => some st
  | st, w :: ws =>
    if isPositional w then parseWords { st with positionals := st.positionals ++ [w] } ws
    else if w = chars! "--" then some { st with positionals := st.positionals ++ ws }
    else
      match lookupWord w with
      | none => parseWords st.fail ws
      | some (o, value) =>
        match o.kind, value with
        | .printer, some _ => parseWords st.fail ws
        | .printer, none => none
        | .flag, value => parseWords (provideValue st o (value.getD [])) ws
        | _, some v => parseWords (provideValue st o v) ws
        | _, none =>
          match ws with
          | [] => some st.fail
          | v :: ws => parseWords (provideValue st o v) ws

/-- What is on an accepted command line. -/
structure ParsedLine where
  cli : CommandLine
  sources : List Str
  buildPath : Option Str
  argsAfter : List Str
  argsBefore : List Str
  /-- the words after the first `--`, which `FixedCompilationDatabase::loadFromCommandLine` takes -/
  fixed : Option (List Str)
  deriving Repr, DecidableEq

def textValues (vs : List ClValue) : List Str :=
  vs.filterMap fun v => match v with | .text s => some s | _ => none

def flagValues (vs : List ClValue) : List Bool :=
  vs.filterMap fun v => match v with | .flag b => some b | _ => none

def numberValues (vs : List ClValue) : List Int :=
  vs.filterMap fun v => match v with | .number z => some z | _ => none

/-- The variables of `Options.cpp:29-97` and of `CommonOptionsParser` after parsing. -/
def ClState.result (st : ClState) (fixed : Option (List Str)) : ParsedLine where
  cli :=
    { output := (textValues (st.values .output)).head?
      reportType := (textValues (st.values .reportType)).head?
      rulesPath := textValues (st.values .rulesPath)
      ruleConfiguration := textValues (st.values .ruleConfiguration)
      enabledRules := textValues (st.values .enabledRules)
      disabledRules := textValues (st.values .disabledRules)
      listEnabledRules := (flagValues (st.values .listEnabledRules)).head?.getD false
      maxP1 := (numberValues (st.values .maxP1)).head?
      maxP2 := (numberValues (st.values .maxP2)).head?
      maxP3 := (numberValues (st.values .maxP3)).head?
      globalAnalysis := (flagValues (st.values .globalAnalysis)).head?
      clangChecker := (flagValues (st.values .clangChecker)).head?
      duplications := (flagValues (st.values .duplications)).head?
      verbose := (flagValues (st.values .verbose)).head?.getD false }
  sources := st.positionals
  buildPath := (textValues (st.values .buildPath)).head?
  argsAfter := textValues (st.values .argsAfter)
  argsBefore := textValues (st.values .argsBefore)
  fixed := fixed

/-- What becomes of a command line. -/
inductive LineOutcome where
  /-- the help text or the version is printed; the program ends with status 0 -/
  | printed
  | rejected
  | accepted (line : ParsedLine)
  deriving Repr, DecidableEq

/-- `FixedCompilationDatabase::loadFromCommandLine`: the words after the first `--`. -/
def fixedArgs (args : List Str) : Option (List Str) :=
  match args.dropWhile fun w => decide (w ≠ chars! "--") with
  | [] => none
  | _ :: rest => some rest

/-- `CommonOptionsParser::create` with at least one positional argument.  What is after the first `--` is
taken first; `expand` replaces response files. -/
def parseLine (expand : List Str → List Str) (args : List Str) : LineOutcome :=
  let before := args.takeWhile fun w => decide (w ≠ chars! "--")
  let fixed := fixedArgs args
  match parseWords ClState.start (expand before) with
  | none => .printed
  | some st =>
    if st.failed || st.positionals.isEmpty then .rejected else .accepted (st.result fixed)

/-- `main.cpp:169-219`, `main`, from the words of the command line; `databases` are the compile commands
that `CommonOptionsParser` finds. -/
def commandProgram {U σ κ : Type} [DecidableEq κ] (m : Machine U σ κ) (yaml : Str → RefConfig)
    (expand : List Str → List Str) (databases : ParsedLine → Str → List CompileCommand)
    (args : List Str) : Outcome Nat :=
  match parseLine expand args with
  | .printed => .ok 0
  | .rejected => do
    let code ← refProgram m yaml none
    pure code.toNat
  | .accepted line => do
    let code ← refProgram { m with db := databases line, sources := line.sources } yaml (some line.cli)
    pure code.toNat

end Oclint
