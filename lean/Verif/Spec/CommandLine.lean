import Verif.Model.CommandLine
import Verif.Spec.Program

/-!
# What a command line says
-/

namespace Oclint.Spec

/-! ## Names -/

/-- Options with a text or number. -/
def valueNames : List Str :=
  [chars! "o", chars! "report-type", chars! "R", chars! "rc", chars! "rule", chars! "disable-rule",
   chars! "max-priority-1", chars! "max-priority-2", chars! "max-priority-3", chars! "p",
   chars! "extra-arg", chars! "extra-arg-before"]

/-- Switches. -/
def switchNames : List Str :=
  [chars! "list-enabled-rules", chars! "enable-global-analysis", chars! "enable-clang-static-analyzer",
   chars! "allow-duplicated-violations", chars! "verbose"]

/-- Requests to print something. -/
def printNames : List Str :=
  [chars! "help", chars! "h", chars! "help-list", chars! "help-hidden", chars! "help-list-hidden",
   chars! "version"]

/-- Options that may be given again. -/
def listNames : List Str :=
  [chars! "R", chars! "rc", chars! "rule", chars! "disable-rule", chars! "extra-arg",
   chars! "extra-arg-before"]

/-! ## Reading words -/

/-- One thing that a command line says. -/
inductive LineItem where
  | source (path : Str)
  /-- the text is empty for a switch without value -/
  | option (name text : Str)
  | print
  | wrong
  deriving Repr, DecidableEq

/-- A word that is no option. -/
def IsSource (w : Str) : Prop := w.head? ≠ some '-' ∨ w = chars! "-"

/-- An option with one dash or with two. -/
def Dashed (w rest : Str) : Prop :=
  rest ≠ [] ∧ (w = '-' :: rest ∧ rest.head? ≠ some '-' ∨ w = '-' :: '-' :: rest)

/-- No option begins like that. -/
def Unheard (rest : Str) : Prop :=
  (∀ name ∈ valueNames ++ switchNames ++ printNames, rest ≠ name ∧ ¬ name ++ ['='] <+: rest) ∧
    rest.head? ≠ some 'R'

/-- Words, and what they say one after the other. -/
inductive WordsSay : List Str → List LineItem → Prop where
  | nil : WordsSay [] []
  | source {w ws said} : IsSource w → WordsSay ws said → WordsSay (w :: ws) (.source w :: said)
  /-- everything behind `--` is a source -/
  | rest (ws : List Str) : WordsSay (chars! "--" :: ws) (ws.map .source)
  /-- `-name=text` -/
  | assigned {w name text ws said} : Dashed w (name ++ '=' :: text) → name ∈ valueNames ++ switchNames →
      WordsSay ws said → WordsSay (w :: ws) (.option name text :: said)
  /-- `-switch` -/
  | switch {w name ws said} : Dashed w name → name ∈ switchNames → WordsSay ws said →
      WordsSay (w :: ws) (.option name [] :: said)
  /-- `-name text` -/
  | separate {w name text ws said} : Dashed w name → name ∈ valueNames → WordsSay ws said →
      WordsSay (w :: text :: ws) (.option name text :: said)
  /-- `-Rtext` -/
  | joined {w c text ws said} : Dashed w ('R' :: c :: text) → c ≠ '=' → WordsSay ws said →
      WordsSay (w :: ws) (.option (chars! "R") (c :: text) :: said)
  /-- nothing behind it is read any more -/
  | print {w name} (ws : List Str) : Dashed w name → name ∈ printNames → WordsSay (w :: ws) [.print]
  /-- `-help=text` -/
  | noValue {w name text ws said} : Dashed w (name ++ '=' :: text) → name ∈ printNames → WordsSay ws said →
      WordsSay (w :: ws) (.wrong :: said)
  /-- `-name` at the end -/
  | missing {w name} : Dashed w name → name ∈ valueNames → WordsSay [w] [.wrong]
  | unknown {w rest ws said} : Dashed w rest → Unheard rest → WordsSay ws said →
      WordsSay (w :: ws) (.wrong :: said)

/-! ## What it means -/

/-- The texts given for an option. -/
def given (name : Str) (said : List LineItem) : List Str :=
  said.filterMap fun s => match s with
    | .option n text => if n = name then some text else none
    | _ => none

/-- The sources. -/
def sourcesSaid (said : List LineItem) : List Str :=
  said.filterMap fun s => match s with
    | .source p => some p
    | _ => none

/-- A switch is on or off. -/
def SwitchText (text : Str) (b : Bool) : Prop :=
  (b = true ∧ text ∈ [[], chars! "true", chars! "TRUE", chars! "True", chars! "1"]) ∨
    (b = false ∧ text ∈ [chars! "false", chars! "FALSE", chars! "False", chars! "0"])

/-- A digit and its value. -/
def IsDigit (c : Char) (d : Nat) : Prop :=
  ('0' ≤ c ∧ c ≤ '9' ∧ d = c.toNat - '0'.toNat) ∨ ('a' ≤ c ∧ c ≤ 'z' ∧ d = c.toNat - 'a'.toNat + 10) ∨
    ('A' ≤ c ∧ c ≤ 'Z' ∧ d = c.toNat - 'A'.toNat + 10)

/-- Digits in a radix, and their value. -/
inductive InRadix (radix : Nat) : Str → Nat → Prop where
  | one {c d} : IsDigit c d → d < radix → InRadix radix [c] d
  | more {s n c d} : InRadix radix s n → IsDigit c d → d < radix → InRadix radix (s ++ [c]) (n * radix + d)

/-- What the sign of a radix may be. -/
def radixSigns : List (Str × Nat) :=
  [(chars! "0x", 16), (chars! "0X", 16), (chars! "0b", 2), (chars! "0B", 2), (chars! "0o", 8)]

/-- A number without sign: in decimal, or with a radix; a zero in front of other digits says that the
radix is eight. -/
def NumberText (text : Str) (n : Nat) : Prop :=
  (∃ sign radix digits, (sign, radix) ∈ radixSigns ∧ text = sign ++ digits ∧ InRadix radix digits n) ∨
    (∃ digits, text = '0' :: digits ∧ InRadix 8 digits n) ∨
    ((text = chars! "0" ∨ text.head? ≠ some '0') ∧ InRadix 10 text n)

/-- A number that an `int` can hold. -/
def IntText (text : Str) (z : Int) : Prop :=
  IsInt32 z ∧ ∃ n, (NumberText text n ∧ z = n) ∨ ∃ t, text = '-' :: t ∧ NumberText t n ∧ z = -n

/-- An option that may be given once. -/
def Once {α : Type} (texts : List Str) (Means : Str → α → Prop) (value : Option α) : Prop :=
  (texts = [] ∧ value = none) ∨ ∃ text v, texts = [text] ∧ Means text v ∧ value = some v

/-- A switch that is off unless it is given. -/
def Switched (texts : List Str) (value : Bool) : Prop :=
  ∃ v, Once texts SwitchText v ∧ value = v.getD false

/-- What is said is in order and means this. -/
structure Means (said : List LineItem) (line : ParsedLine) : Prop where
  nothingWrong : .wrong ∉ said
  someSource : sourcesSaid said ≠ []
  sources : line.sources = sourcesSaid said
  output : Once (given (chars! "o") said) Eq line.cli.output
  reportType : Once (given (chars! "report-type") said) Eq line.cli.reportType
  rulesPath : line.cli.rulesPath = given (chars! "R") said
  ruleConfiguration : line.cli.ruleConfiguration = given (chars! "rc") said
  enabledRules : line.cli.enabledRules = given (chars! "rule") said
  disabledRules : line.cli.disabledRules = given (chars! "disable-rule") said
  listEnabledRules : Switched (given (chars! "list-enabled-rules") said) line.cli.listEnabledRules
  maxP1 : Once (given (chars! "max-priority-1") said) IntText line.cli.maxP1
  maxP2 : Once (given (chars! "max-priority-2") said) IntText line.cli.maxP2
  maxP3 : Once (given (chars! "max-priority-3") said) IntText line.cli.maxP3
  globalAnalysis : Once (given (chars! "enable-global-analysis") said) SwitchText line.cli.globalAnalysis
  clangChecker : Once (given (chars! "enable-clang-static-analyzer") said) SwitchText
    line.cli.clangChecker
  duplications : Once (given (chars! "allow-duplicated-violations") said) SwitchText
    line.cli.duplications
  verbose : Switched (given (chars! "verbose") said) line.cli.verbose
  buildPath : Once (given (chars! "p") said) Eq line.buildPath
  argsAfter : line.argsAfter = given (chars! "extra-arg") said
  argsBefore : line.argsBefore = given (chars! "extra-arg-before") said

/-- The words before the first `--`, and what is behind it. -/
def Parted (args before : List Str) (fixed : Option (List Str)) : Prop :=
  chars! "--" ∉ before ∧
    ((args = before ∧ fixed = none) ∨ ∃ rest, args = before ++ chars! "--" :: rest ∧ fixed = some rest)

/-- A command line that is accepted and means this. -/
def LineMeans (expand : List Str → List Str) (args : List Str) (line : ParsedLine) : Prop :=
  ∃ before said, Parted args before line.fixed ∧ WordsSay (expand before) said ∧ .print ∉ said ∧
    Means said line

/-- A command line that asks for help or the version. -/
def LinePrints (expand : List Str → List Str) (args : List Str) : Prop :=
  ∃ before fixed said, Parted args before fixed ∧ WordsSay (expand before) said ∧ .print ∈ said

/-- The exit status of the program for these words. -/
def CommandEnds {U σ κ : Type} (m : Machine U σ κ) (expand : List Str → List Str)
    (databases : ParsedLine → Str → List CompileCommand) (args : List Str) (status : Nat) : Prop :=
  (LinePrints expand args ∧ status = 0) ∨
    (∃ line, LineMeans expand args line ∧
      ProgramEnds { m with db := databases line, sources := line.sources } line.cli status) ∨
    (¬ LinePrints expand args ∧ (∀ line, ¬ LineMeans expand args line) ∧ status = 7)

end Oclint.Spec
