import Verif.Model.ReportRun
import Verif.Spec.Console
import Verif.Spec.LongLineRun
import Verif.Spec.Reporters

/-!
# Specification of a run with one of the shipped reporters
-/

namespace Oclint.Spec
open Oclint

variable {U σ κ : Type}

/-- The reporters of the machine are the shipped ones: `plug` says which library is which, and given
the results `c` it writes what that reporter writes. -/
structure ShippedReporters (m : Machine U σ κ) (v : Voices U) (info : RuleId → RuleInfo)
    (clock : Clock) (plug : Str → ReporterPlugin) (c : ResultCollector) : Prop where
  named : ∀ q name, m.reporterLibrary q = some (some name) → name = (plug q).typeName
  writes : ∀ q a s, (plug q).report info clock ⟨c, a⟩ = .ok s → m.report q a = .ok () ∧ v.text q a = s
  undefined : ∀ q a, (plug q).report info clock ⟨c, a⟩ = .ub → m.report q a = .ub

/-- The destination of the report can be written to. -/
def CanWrite (m : Machine U σ κ) (st : OptionState) : Prop :=
  st.argOutput.value = "-".toList ∨ ∃ f, outputPath st = .ok f ∧ m.canOpen f = true

/-- The program ends and the report `s` is where it belongs: with exit code 0, 5 or 6. -/
def Delivered [DecidableEq κ] (m : Machine U σ κ) (v : Voices U) (cli : CommandLine) (st : OptionState)
    (s : Str) : Prop :=
  ∃ k code, mainConsole m v (some cli) = .ok (k, code) ∧
    (code.toNat = 0 ∨ code.toNat = 5 ∨ code.toNat = 6) ∧
    Placed m st cli.listEnabledRules s k.out k.files

/-- How many of the files have a line that is too long. -/
noncomputable def filesWithLongLines (apple : Bool) (rule : RuleId) (limit : Int)
    (linesOf : SourceUnit → List Str) (us : List SourceUnit) : Nat :=
  (us.filter fun u => decide (tooLongLines apple rule limit u (linesOf u) ≠ [])).length

/-- All lines that are too long, in the order of the files. -/
noncomputable def allLongLines (apple : Bool) (rule : RuleId) (limit : Int)
    (linesOf : SourceUnit → List Str) (us : List SourceUnit) : List Violation :=
  us.flatMap fun u => tooLongLines apple rule limit u (linesOf u)

end Oclint.Spec
