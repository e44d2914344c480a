import Verif.Model.Options
import Verif.Spec.Registry

/-!
# Specification of option precedence
-/

namespace Oclint.Spec
open Oclint

/-- Everything a configuration file can say, with "not said" explicit. -/
structure Said where
  output : Option Str
  reportType : Option Str
  maxP1 : Option Int
  maxP2 : Option Int
  maxP3 : Option Int
  globalAnalysis : Option Bool
  clangChecker : Option Bool
  duplications : Option Bool

/-- What a configuration file says: an empty text, the number -2147483648 and an absent flag count
as not said. -/
def said (c : ConfigFile) : Said :=
  { output := if c.output = [] then none else some c.output
    reportType := if c.reportType = [] then none else some c.reportType
    maxP1 := if c.maxP1 = -2147483648 then none else some c.maxP1
    maxP2 := if c.maxP2 = -2147483648 then none else some c.maxP2
    maxP3 := if c.maxP3 = -2147483648 then none else some c.maxP3
    globalAnalysis := match c.enableGlobalAnalysis with
      | .TRUE => some true | .FALSE => some false | .UNDEFINED => none
    clangChecker := match c.clangChecker with
      | .TRUE => some true | .FALSE => some false | .UNDEFINED => none
    duplications := match c.allowDuplicatedViolations with
      | .TRUE => some true | .FALSE => some false | .UNDEFINED => none }

/-- The configuration file at a path: nothing said when it does not exist or is blank. -/
def configAt (e : Env) (path : Str) : ConfigFile :=
  match e.fs path with
  | none => ConfigFile.initial
  | some content =>
    if ∀ c ∈ content, c = ' ' ∨ c = '\t' ∨ c = '\n' ∨ c = '\r' ∨ c = '\x0b' ∨ c = '\x0c'
    then ConfigFile.initial else e.yaml content

/-- The directory against which relative names are resolved: the working directory if its name has
at most 299 bytes, otherwise the empty text. -/
def recordedCwd (e : Env) : Str := if e.cwd.length < 300 then e.cwd else []

/-- The configuration files consulted, least important first. -/
def sources (e : Env) : List ConfigFile :=
  [configAt e (e.binPath ++ "/../etc/oclint".toList)]
    ++ (match e.home with
        | some (c :: cs) => [configAt e (c :: cs ++ "/.oclint".toList)]
        | _ => [])
    ++ [configAt e (recordedCwd e ++ "/.oclint".toList)]

/-- The first of the candidates that is present, else the default. -/
def firstSaid {α : Type} (candidates : List (Option α)) (default : α) : α :=
  match candidates.filterMap id with
  | [] => default
  | v :: _ => v

/-- A command line option beats the working directory file, which beats the home file, which beats
the system file, which beats the default. -/
def effective {α : Type} (e : Env) (given : Option α) (pick : Said → Option α) (default : α) : α :=
  firstSaid (given :: ((sources e).map fun c => pick (said c)).reverse) default

/-- All enable/disable requests in the order they take effect: per configuration file first the
enables then the disables, the command line last. -/
def requests (e : Env) (cli : CommandLine) : List Request :=
  ((sources e).flatMap fun c =>
      c.rules.map (Request.mk true) ++ c.disableRules.map (Request.mk false))
    ++ cli.enabledRules.map (Request.mk true) ++ cli.disabledRules.map (Request.mk false)

/-- Specification of splitting a `-rc` argument. -/
def IsSplit (arg key value : Str) : Prop :=
  (arg = key ++ '=' :: value ∧ '=' ∉ value) ∨
    ('=' ∉ arg ∧ key = arg ∧ value = arg)

/-- What becomes of a `-rc` argument of any length: the position of the last `=` is cut to 32 bits. -/
inductive RcSplit (arg : Str) : Outcome (Str × Str) → Prop where
  /-- no separator -/
  | whole : '=' ∉ arg → RcSplit arg (.ok (arg, arg))
  /-- as expected -/
  | atLast (key value : Str) : arg = key ++ '=' :: value → '=' ∉ value → key.length < 2147483647 →
      RcSplit arg (.ok (key, value))
  /-- one past the greatest `int` -/
  | overflow (key value : Str) : arg = key ++ '=' :: value → '=' ∉ value →
      key.length % 4294967296 = 2147483647 → RcSplit arg .ub
  /-- a negative position: an exception that nobody catches -/
  | negative (key value : Str) : arg = key ++ '=' :: value → '=' ∉ value →
      2147483648 ≤ key.length % 4294967296 → key.length % 4294967296 ≠ 4294967295 →
      RcSplit arg (.throws "basic_string::substr".toList)
  /-- the position that means that there is no separator -/
  | unseen (key value : Str) : arg = key ++ '=' :: value → '=' ∉ value →
      key.length % 4294967296 = 4294967295 → RcSplit arg (.ok (arg, arg))
  /-- a character that is at a position with the same 32 bits -/
  | elsewhere (key value : Str) : arg = key ++ '=' :: value → '=' ∉ value →
      4294967296 ≤ key.length → key.length % 4294967296 < 2147483647 →
      RcSplit arg (.ok (arg.take (key.length % 4294967296), arg.drop (key.length % 4294967296 + 1)))

/-- All rule configuration settings in the order they take effect, given the split command line
arguments. -/
def settings (e : Env) (rc : List (Str × Str)) : List CfgOp :=
  ((sources e).flatMap fun c => c.ruleConfigurations.map fun kv => CfgOp.set kv.1 kv.2)
    ++ rc.map fun kv => CfgOp.set kv.1 kv.2

end Oclint.Spec
