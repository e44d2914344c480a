import Verif.Model.BuildScripts
import Verif.Model.Scaffold
import Verif.Model.Bundle

/-!
# Reading the command lines of the scripts

Models how `argparse` of Python 3.11, which is not part of the project, reads the words that a script is
started with, and the parsers of `build`, `test`, `dogFooding`, `ci`, `googleTest`, `bundle`,
`clang`, `scaffoldRule` and `scaffoldReporter`.  Lines cited without the name of a file are those of its
`argparse.py` in version 3.11.10.

Simplifications: what is printed is left out, so that all mistakes are one; `int` reads the digits `0` to
`9` only, Python also those of other scripts; no script has more than one positional argument.
-/

namespace Oclint

/-! ## The library -/

/-- What an option does to the namespace `σ`: it takes no word, or one that it may refuse, or is
`--help`. -/
inductive OptAction (σ : Type) where
  | flag (set : σ → σ)
  | value (set : Str → σ → Option σ)
  | help

/-- The positional argument; it may be left out if it is not required (`nargs='?'`). -/
structure Positional (σ : Type) where
  required : Bool
  set : Str → σ → Option σ

/-- A parser: option strings with what they do, in the order in which they were added
(`_option_string_actions`), and the positional argument. -/
structure ArgParser (σ : Type) where
  options : List (Str × OptAction σ)
  positional : Option (Positional σ)
  defaults : σ

/-- How reading ends: with a namespace, with a message and exit code 2, or with help and exit code 0. -/
inductive ParseResult (σ : Type) where
  | parsed (s : σ)
  | refused
  | helped

/-- `_option_string_actions[name]`. -/
def ArgParser.find {σ : Type} (p : ArgParser σ) (name : Str) : Option (OptAction σ) :=
  (p.options.find? fun o => decide (o.1 = name)).map (·.2)

/-- An option as it was found in a word: what it does, its option string, and the text that is in the same
word, with what separates it. -/
structure FoundOption (σ : Type) where
  action : OptAction σ
  name : Str
  sep : Str
  explicitArg : Option Str

/-- A word: an option, a word that looks like an option and is none, the first `--`, or an argument. -/
inductive ArgToken (σ : Type) where
  | option (o : FoundOption σ)
  | unknown
  | dashes
  | arg (w : Str)

/-- `str.partition('=')`; `none` if there is no `=`. -/
def partitionEq (w : Str) : Option (Str × Str) :=
  if '=' ∈ w then some (w.takeWhile fun c => decide (c ≠ '='), (w.dropWhile fun c => decide (c ≠ '=')).tail)
  else none

/-- `_get_option_tuples` (line 2300): two dashes. -/
def longMatches {σ : Type} (p : ArgParser σ) (w : Str) : List (FoundOption σ) :=
  match partitionEq w with
  | some (pre, arg) =>
    (p.options.filter fun o => pre.isPrefixOf o.1).map fun o => ⟨o.2, o.1, ['='], some arg⟩
  | none => (p.options.filter fun o => w.isPrefixOf o.1).map fun o => ⟨o.2, o.1, [], none⟩

/-- `_get_option_tuples` (line 2300): one dash. -/
def shortMatches {σ : Type} (p : ArgParser σ) (w : Str) : List (FoundOption σ) :=
  p.options.filterMap fun o =>
    if o.1 = w.take 2 then some ⟨o.2, o.1, [], some (w.drop 2)⟩
    else if w.isPrefixOf o.1 then some ⟨o.2, o.1, [], none⟩
    else none

/-- `_negative_number_matcher` (line 1386), `^-\d+$|^-\d*\.\d+$`; `$` allows a line break at the end. -/
def looksNegative (w : Str) : Bool :=
  let digits (s : Str) : Bool := decide (s ≠ []) && s.all Char.isDigit
  match w with
  | '-' :: r =>
    let r := if r.getLast? = some '\n' then r.dropLast else r
    digits r || (decide ('.' ∈ r) && (r.takeWhile fun c => decide (c ≠ '.')).all Char.isDigit
      && digits (r.dropWhile fun c => decide (c ≠ '.')).tail)
  | _ => false

/-- `_parse_optional` (line 2243); `none` if the word is ambiguous. -/
def parseOptional {σ : Type} (p : ArgParser σ) (w : Str) : Option (ArgToken σ) :=
  match w with
  | [] => some (.arg w)
  | '-' :: rest =>
    match p.find w with
    | some a => some (.option ⟨a, w, [], none⟩)
    | none =>
      if rest = [] then some (.arg w)
      else
        match (partitionEq w).bind fun q => (p.find q.1).map fun a => (⟨a, q.1, ['='], some q.2⟩ : FoundOption σ) with
        | some o => some (.option o)
        | none =>
          match if rest.head? = some '-' then longMatches p w else shortMatches p w with
          | [o] => some (.option o)
          | _ :: _ :: _ => none
          | [] =>
            if looksNegative w then some (.arg w)
            else if ' ' ∈ w then some (.arg w)
            else some .unknown
  | _ => some (.arg w)

/-- `_parse_known_args` (line 1918), its beginning: the kinds of all words, before any of them is acted upon. -/
def classify {σ : Type} (p : ArgParser σ) : List Str → Option (List (ArgToken σ))
  | [] => some []
  | w :: ws =>
    if w = ['-', '-'] then some (.dashes :: ws.map .arg)
    else (parseOptional p w).bind fun t => (classify p ws).map (t :: ·)

/-- How a word with options in it ends: all is used; a letter is no option; or the last option needs the
words that follow. -/
inductive OptionEnd (σ : Type) where
  | done
  | stray
  | more (a : OptAction σ)

/-- `consume_optional` (line 1986): an option with text in the same word; `single` is for
one dash.  Options without an argument may be written together.  `none` is a mistake. -/
def explicitActions {σ : Type} (p : ArgParser σ) (single : Bool) :
    OptAction σ → Str → Str → Option (List (OptAction σ × Str) × OptionEnd σ)
  | .value f, _, arg => some ([(.value f, arg)], .done)
  | _, _, [] => none
  | a, sep, c :: cs =>
    if single then
      if sep ≠ [] ∨ c = '-' then none
      else
        match p.find ['-', c] with
        | none => some ([(a, [])], .stray)
        | some b =>
          match cs with
          | [] => some ([(a, [])], .more b)
          | d :: ds =>
            (if d = '=' then
                (match b with
                | .value f => some ([(.value f, ds)], .done)
                | _ => none)
              else explicitActions p true b [] (d :: ds)).map fun r => ((a, []) :: r.1, r.2)
    else none

/-- What is known while words are acted upon: the namespace, the positional argument while it is still
expected, and whether there are words that nothing is done with. -/
structure ParseState (σ : Type) where
  space : σ
  waiting : Option (Positional σ)
  extras : Bool

/-- `take_action` (line 1965), for options. -/
def takeOptions {σ : Type} (st : ParseState σ) : List (OptAction σ × Str) → Except (ParseResult σ) (ParseState σ)
  | [] => .ok st
  | (.flag f, _) :: rest => takeOptions { st with space := f st.space } rest
  | (.value f, w) :: rest =>
    match f w st.space with
    | some s => takeOptions { st with space := s } rest
    | none => .error .refused
  | (.help, _) :: _ => .error .helped

/-- `take_action` for the positional argument. -/
def takePositional {σ : Type} (st : ParseState σ) (q : Positional σ) (w : Str) :
    Except (ParseResult σ) (ParseState σ) :=
  match q.set w st.space with
  | some s => .ok { st with space := s, waiting := none }
  | none => .error .refused

/-- The ends of `_parse_known_args` (line 1918) and `parse_args` (line 1873): what is missing, and what nothing was done with. -/
def finishParse {σ : Type} (st : ParseState σ) : ParseResult σ :=
  if (st.waiting.map (·.required)).getD false || st.extras then .refused else .parsed st.space

/-- Continuing after an action. -/
def afterAction {σ : Type} (r : Except (ParseResult σ) (ParseState σ)) (k : ParseState σ → ParseResult σ) :
    ParseResult σ :=
  match r with
  | .ok st => k st
  | .error e => e

/-- The loop of `_parse_known_args` (line 1918) and what follows it, `consume_optional` (line 1986) and
`consume_positionals` (line 2076) with `_match_argument`, `_match_arguments_partial` and
`_get_nargs_pattern` (lines 2205, 2227, 2342).  The words are taken one at a time: an argument goes to the positional argument if
that is still expected, together with `--` next to it. -/
def consume {σ : Type} (p : ArgParser σ) : List (ArgToken σ) → ParseState σ → ParseResult σ
  | [], st => finishParse st
  | .unknown :: ts, st => consume p ts { st with extras := true }
  | .arg w :: ts, st =>
    match st.waiting with
    | some q =>
      afterAction (takePositional st q w) fun st =>
        match ts with
        | .dashes :: ts => consume p ts st
        | ts => consume p ts st
    | none => consume p ts { st with extras := true }
  | .dashes :: ts, st =>
    match st.waiting, ts with
    | some q, .arg w :: ts => afterAction (takePositional st q w) fun st => consume p ts st
    | some q, ts => if q.required then consume p ts { st with extras := true }
      else consume p ts { st with waiting := none }
    | none, ts => consume p ts { st with extras := true }
  | .option o :: ts, st =>
    match o.explicitArg with
    | some e =>
      match explicitActions p (decide (o.name[1]? ≠ some '-')) o.action o.sep e with
      | none => .refused
      | some (acts, .done) => afterAction (takeOptions st acts) fun st => consume p ts st
      | some (acts, .stray) =>
        afterAction (takeOptions { st with extras := true } acts) fun st => consume p ts st
      | some (acts, .more (.value f)) =>
        match ts with
        | .arg w :: ts => afterAction (takeOptions st (acts ++ [(.value f, w)])) fun st => consume p ts st
        | _ => .refused
      | some (acts, .more a) =>
        afterAction (takeOptions st (acts ++ [(a, [])])) fun st => consume p ts st
    | none =>
      match o.action, ts with
      | .value f, .arg w :: ts => afterAction (takeOptions st [(.value f, w)]) fun st => consume p ts st
      | .value _, _ => .refused
      | a, ts => afterAction (takeOptions st [(a, [])]) fun st => consume p ts st

/-- `parse_args` (line 1873). -/
def ArgParser.parse {σ : Type} (p : ArgParser σ) (words : List Str) : ParseResult σ :=
  match classify p words with
  | none => .refused
  | some ts => consume p ts ⟨p.defaults, p.positional, false⟩

/-! ## What the scripts use of it -/

/-- `-h` and `--help`, which every parser begins with (`add_help`). -/
def helpOptions {σ : Type} : List (Str × OptAction σ) := [("-h".toList, .help), ("--help".toList, .help)]

/-- `add_argument('-x', '--x', …)`: the option strings of one action. -/
def optionStrings {σ : Type} (names : List Str) (a : OptAction σ) : List (Str × OptAction σ) :=
  names.map fun n => (n, a)

/-- `action='store_true'` or `'store_false'`, for an attribute. -/
def storeFlag {σ : Type} (names : List Str) (set : σ → σ) : List (Str × OptAction σ) :=
  optionStrings names (.flag set)

/-- An option with any text. -/
def storeText {σ : Type} (names : List Str) (set : Str → σ → σ) : List (Str × OptAction σ) :=
  optionStrings names (.value fun w s => some (set w s))

/-- Digits with single `_` between them; the number is what came before, `false` after a `_`. -/
def pyDigits : Nat → Bool → Str → Option Nat
  | n, afterDigit, [] => if afterDigit then some n else none
  | n, afterDigit, c :: cs =>
    if c.isDigit then pyDigits (10 * n + (c.toNat - 48)) true cs
    else if c = '_' ∧ afterDigit = true then pyDigits n false cs
    else none

/-- The blanks that `int` strips, of those in ASCII. -/
def isPyBlank (c : Char) : Bool :=
  decide (c = ' ') || decide (9 ≤ c.toNat ∧ c.toNat ≤ 13) || decide (28 ≤ c.toNat ∧ c.toNat ≤ 31)

/-- `str.strip()`. -/
def pyStrip (s : Str) : Str := ((s.dropWhile isPyBlank).reverse.dropWhile isPyBlank).reverse

/-- Python's `int(text)`; `none` is a `ValueError`. -/
def pyInt (s : Str) : Option Int :=
  match pyStrip s with
  | '-' :: ds => (pyDigits 0 false ds).map fun n : Nat => -(n : Int)
  | '+' :: ds => (pyDigits 0 false ds).map Int.ofNat
  | ds => (pyDigits 0 false ds).map Int.ofNat

/-- `type=int`. -/
def storeInt {σ : Type} (names : List Str) (set : Int → σ → σ) : List (Str × OptAction σ) :=
  optionStrings names (.value fun w s => (pyInt w).map fun i => set i s)

/-- How `argparse` reads the name of a part (`build:14`, `test:19`): `all` is `some none`. -/
def moduleChoice (w : Str) : Option (Option OclintModule) :=
  if w = "all".toList then some none else (oclintModules.find? fun m => decide (m.name = w)).map some

/-- `'module_name', nargs='?', choices=['all'] + OCLINT_MODULES, default='all'` (`build:14`, `test:19`,
`dogFooding:17`). -/
def modulePositional {σ : Type} (set : Option OclintModule → σ → σ) : Positional σ :=
  ⟨false, fun w s => (moduleChoice w).map fun m => set m s⟩

/-- `build:13-24`. -/
def buildParser (root : Str) : ArgParser BuildArgs where
  options := helpOptions
    ++ storeFlag ["-docgen".toList, "--docgen".toList] (fun s => { s with docgen := true })
    ++ storeFlag ["-release".toList, "--release".toList] (fun s => { s with release := true })
    ++ storeFlag ["-clean".toList, "--clean".toList] (fun s => { s with clean := true })
    ++ storeInt ["-j".toList] (fun i s => { s with j := i })
    ++ storeText ["-llvm-root".toList, "--llvm-root".toList] (fun w s => { s with llvmRoot := w })
    ++ storeFlag ["-no-ninja".toList, "--no-ninja".toList] (fun s => { s with noNinja := true })
    ++ storeFlag ["--use-llvm-clang".toList] (fun s => { s with useLlvmClang := true })
    ++ storeFlag ["--no-llvm-clang".toList] (fun s => { s with useLlvmClang := false })
  positional := some (modulePositional fun m s => { s with moduleName := m })
  defaults := { llvmRoot := clangInstallDir root }

/-- `test:18-29`. -/
def testParser (root : Str) : ArgParser TestArgs where
  options := helpOptions
    ++ storeFlag ["-show".toList, "--show".toList] (fun s => { s with showResults := true })
    ++ storeFlag ["-clean".toList, "--clean".toList] (fun s => { s with clean := true })
    ++ storeInt ["-j".toList] (fun i s => { s with j := i })
    ++ storeFlag ["-as-dep".toList, "--as-dep".toList] (fun s => { s with asDep := true })
    ++ storeText ["-llvm-root".toList, "--llvm-root".toList] (fun w s => { s with llvmRoot := w })
    ++ storeFlag ["-no-ninja".toList, "--no-ninja".toList] (fun s => { s with noNinja := true })
    ++ storeFlag ["--use-llvm-clang".toList] (fun s => { s with useLlvmClang := true })
    ++ storeFlag ["--no-llvm-clang".toList] (fun s => { s with useLlvmClang := false })
  positional := some (modulePositional fun m s => { s with moduleName := m })
  defaults := { llvmRoot := clangInstallDir root }

/-- `dogFooding:16-24`. -/
def dogParser (root : Str) : ArgParser DogArgs where
  options := helpOptions
    ++ storeFlag ["-enable-clang-static-analyzer".toList, "--enable-clang-static-analyzer".toList]
      (fun s => { s with staticAnalyzer := true })
    ++ storeFlag ["-show".toList, "--show".toList] (fun s => { s with showResults := true })
    ++ storeText ["-llvm-root".toList, "--llvm-root".toList] (fun w s => { s with llvmRoot := w })
    ++ storeFlag ["--use-llvm-clang".toList] (fun s => { s with useLlvmClang := true })
    ++ storeFlag ["--no-llvm-clang".toList] (fun s => { s with useLlvmClang := false })
  positional := some (modulePositional fun m s => { s with moduleName := m })
  defaults := ⟨none, false, false, clangInstallDir root, false⟩

/-- `ci:11-17`. -/
def ciParser : ArgParser CiArgs where
  options := helpOptions
    ++ storeFlag ["-reset".toList, "--reset".toList] (fun s => { s with reset := true })
    ++ storeFlag ["-setup".toList, "--setup".toList] (fun s => { s with setup := true })
    ++ storeFlag ["-release".toList, "--release".toList] (fun s => { s with release := true })
    ++ storeFlag ["-archive".toList, "--archive".toList] (fun s => { s with archive := true })
    ++ storeInt ["-j".toList] (fun i s => { s with j := i })
  positional := none
  defaults := ⟨false, false, false, false, 0⟩

/-- The tasks of `googleTest` (`googleTest:15`); `co` and `up` are other names of the first two
(`googleTest:71-74`). -/
inductive GtestTask where
  | checkout | update | build
deriving DecidableEq, Repr

/-- The options of `googleTest` (`googleTest:14-22`). -/
structure GtestArgs where
  task : GtestTask
  clean : Bool := false
  j : Int := 0
  llvmRoot : Str
  useLlvmClang : Bool := false

/-- The choices of `task_name` (`googleTest:15`) and what they mean (`googleTest:71-77`). -/
def gtestChoice (w : Str) : Option GtestTask :=
  if w = "checkout".toList ∨ w = "co".toList then some .checkout
  else if w = "update".toList ∨ w = "up".toList then some .update
  else if w = "build".toList then some .build
  else none

/-- `googleTest:14-22`; the task is always given. -/
def gtestParser (root : Str) : ArgParser GtestArgs where
  options := helpOptions
    ++ storeFlag ["-clean".toList, "--clean".toList] (fun s => { s with clean := true })
    ++ storeInt ["-j".toList] (fun i s => { s with j := i })
    ++ storeText ["-llvm-root".toList, "--llvm-root".toList] (fun w s => { s with llvmRoot := w })
    ++ storeFlag ["--use-llvm-clang".toList] (fun s => { s with useLlvmClang := true })
    ++ storeFlag ["--no-llvm-clang".toList] (fun s => { s with useLlvmClang := false })
  positional := some ⟨true, fun w s => (gtestChoice w).map fun t => { s with task := t }⟩
  defaults := { task := .checkout, llvmRoot := clangInstallDir root }

/-- The options of `bundle` (`bundle:20-25`) as they are given: the directory is a text. -/
structure BundleWords where
  archive : Bool := false
  docgen : Bool := false
  release : Bool := false
  llvmRoot : Str

/-- `bundle:20-25`. -/
def bundleParser (root : Str) : ArgParser BundleWords where
  options := helpOptions
    ++ storeFlag ["-archive".toList, "--archive".toList] (fun s => { s with archive := true })
    ++ storeFlag ["-docgen".toList, "--docgen".toList] (fun s => { s with docgen := true })
    ++ storeFlag ["-release".toList, "--release".toList] (fun s => { s with release := true })
    ++ storeText ["-llvm-root".toList, "--llvm-root".toList] (fun w s => { s with llvmRoot := w })
  positional := none
  defaults := { llvmRoot := clangInstallDir root }

/-- The options of `clang` (`clang:12-16`). -/
structure ClangWords where
  clean : Bool := false
  skipConvert : Bool := false

/-- `clang:12-16`. -/
def clangParser : ArgParser ClangWords where
  options := helpOptions
    ++ storeFlag ["-clean".toList, "--clean".toList] (fun s => { s with clean := true })
    ++ storeFlag ["-skip-convert".toList, "--skip-convert".toList] (fun s => { s with skipConvert := true })
  positional := none
  defaults := {}

/-- The choices of `--type` (`scaffoldRule:124`). -/
def typeChoice (w : Str) : Option TemplateKind :=
  [TemplateKind.Generic, .SourceCodeReader, .ASTVisitor, .ASTMatcher].find? fun k => decide (k.text = w)

/-- The choices of `--priority` (`scaffoldRule:127`). -/
def priorityChoice (w : Str) : Option PriorityChoice :=
  (pyInt w).bind fun i =>
    if i = 1 then some .one else if i = 2 then some .two else if i = 3 then some .three else none

/-- `scaffoldRule:122-131`. -/
def ruleParser : ArgParser RuleRequest where
  options := helpOptions
    ++ optionStrings ["-t".toList, "--type".toList]
      (.value fun w s => (typeChoice w).map fun t => { s with type := t })
    ++ storeText ["-c".toList, "--category".toList] (fun w s => { s with category := w })
    ++ storeText ["-n".toList, "--name".toList] (fun w s => { s with name := w })
    ++ optionStrings ["-p".toList, "--priority".toList]
      (.value fun w s => (priorityChoice w).map fun n => { s with priority := n })
    ++ storeFlag ["--test".toList] (fun s => { s with tests := true })
    ++ storeFlag ["--no-test".toList] (fun s => { s with tests := false })
  positional := some ⟨true, fun w s => some { s with className := w }⟩
  defaults := { className := [] }

/-- `scaffoldReporter:74-80`. -/
def reporterParser : ArgParser ReporterRequest where
  options := helpOptions
    ++ storeText ["-n".toList, "--name".toList] (fun w s => { s with name := w })
    ++ storeFlag ["--tests".toList] (fun s => { s with tests := true })
    ++ storeFlag ["--no-tests".toList] (fun s => { s with tests := false })
  positional := some ⟨true, fun w s => some { s with className := w }⟩
  defaults := { className := [] }

end Oclint
