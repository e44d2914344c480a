import Verif.Model.Driver
import Verif.Model.Loader

/-!
# Specifications for plugin loading and the driver
-/

namespace Oclint.Spec
open Oclint

/-- `t` is `s` with the occurrences of `old` that are found scanning from the left without overlap
replaced by `new`. -/
inductive Replaced (old new : Str) : Str → Str → Prop where
  | done : Replaced old new [] []
  | hit (s t : Str) : Replaced old new s t → Replaced old new (old ++ s) (new ++ t)
  | keep (c : Char) (s t : Str) : ¬ old <+: c :: s → Replaced old new s t →
      Replaced old new (c :: s) (c :: t)

/-- The report entry expected for a diagnostic. -/
def diagnosticEntry (d : Diagnostic) : Violation :=
  { rule := none
    path := if d.hasSourceManager = false then []
      else if d.filename = [] ∧ d.isMacro = true then d.expansionFilename else d.filename
    startLine := if d.hasSourceManager then d.line else 0
    startColumn := if d.hasSourceManager then d.column else 0
    endLine := 0
    endColumn := 0
    message := d.message }

/-- The full paths of the plugins in a directory, in directory order. -/
def pluginPaths (ls : Listing) (dir : Str) : List Str :=
  match ls dir with
  | none => []
  | some names => (names.filter fun n => decide (n.head? ≠ some '.')).map fun n => dir ++ '/' :: n

/-- The rules registered so far, in registration order. -/
def registered (reg : Registry) : List RuleId := reg.getD []

/-- The entry recorded for a violation that `rule` reports. -/
def reportEntry (rule : RuleId) (r : Report) : Violation :=
  { rule := some rule, path := r.path, startLine := r.startLine, startColumn := r.startColumn,
    endLine := r.endLine, endColumn := r.endColumn, message := r.message }

end Oclint.Spec
