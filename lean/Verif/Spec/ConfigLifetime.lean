import Verif.Model.ConfigLifetime

/-!
# Specification of the lifetime of configuration texts
-/

namespace Oclint.Spec
open Oclint

/-- `t` is one of the texts of a configuration file. -/
inductive TextOf (c : RefConfig) : TextRef → Prop where
  | rule {t} : t ∈ c.rules → TextOf c t
  | disabled {t} : t ∈ c.disableRules → TextOf c t
  | path {t} : t ∈ c.rulePaths → TextOf c t
  | key {k v} : (k, v) ∈ c.ruleConfigurations → TextOf c k
  | value {k v} : (k, v) ∈ c.ruleConfigurations → TextOf c v
  | output : TextOf c c.output
  | reportType : TextOf c c.reportType

/-- What the author of the file wrote: the same entries with the texts themselves. -/
def written (c : RefConfig) : ConfigFile :=
  { rules := c.rules.map (·.text), disableRules := c.disableRules.map (·.text),
    rulePaths := c.rulePaths.map (·.text),
    ruleConfigurations := c.ruleConfigurations.map fun p => (p.1.text, p.2.text),
    output := c.output.text, reportType := c.reportType.text, maxP1 := c.maxP1, maxP2 := c.maxP2,
    maxP3 := c.maxP3, clangChecker := c.clangChecker,
    allowDuplicatedViolations := c.allowDuplicatedViolations,
    enableGlobalAnalysis := c.enableGlobalAnalysis }

/-- The file has something in it besides blanks (space, `\t`, `\f`, `\v`, `\n`, `\r`). -/
def HasContent (content : Str) : Prop :=
  ∃ c ∈ content, c ∉ [' ', '\t', '\x0c', '\x0b', '\n', '\r']

/-- The file has an entry with a text that is not empty. -/
def HasText (fs : Str → Option Str) (yaml : Str → RefConfig) (path : Str) : Prop :=
  ∃ content, fs path = some content ∧ HasContent content ∧
    ∃ t, TextOf (yaml content) t ∧ t.text ≠ []

/-- The files consulted: of the installation, of the user if `HOME` is set and not empty, of the
working directory (the root if its name has 300 characters or more). -/
def Consulted (e : Env) (path : Str) : Prop :=
  path = e.binPath ++ "/../etc/oclint".toList ∨
    (∃ home, e.home = some home ∧ home ≠ [] ∧ path = home ++ "/.oclint".toList) ∨
    path = (if e.cwd.length < 300 then e.cwd else []) ++ "/.oclint".toList

/-- The same environment, with memory that is kept. -/
def keeping (e : Env) (yaml : Str → RefConfig) : Env := { e with yaml := fun c => written (yaml c) }

end Oclint.Spec
