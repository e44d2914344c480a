import Verif.Spec.ReportRun
import Verif.Spec.TreeRun
import Verif.Spec.MetricRun

/-!
# Specification of the report of a run of rules
-/

namespace Oclint.Spec
open Oclint

variable {U τ : Type}

/-- What reaches a reporter: everything, or everything once. -/
def onceUnless (duplicates : Bool) (vs : List Violation) : List Violation :=
  if duplicates then vs else firsts vs

/-- The diagnostics of these levels, as they reach a reporter. -/
def toldDiagnostics (st : OptionState) (level : DiagLevel → Bool) (rs : List (CompileResult U)) :
    List Violation :=
  onceUnless st.argDuplications.value (entriesOf level rs)

/-- How many files the summary of a report counts as files with violations: those of the first reports
of the units. -/
def filesReported (units : List (List Violation)) : Nat :=
  ((units.filterMap List.head?).map Violation.path).toFinset.card

/-- The characters of identifiers and of the messages about limits. -/
def MessageChar (c : Char) : Prop :=
  c.isAlpha = true ∨ c.isDigit = true ∨ c ∈ [' ', '-', '+', '_', '`', ',', '.']

/-- The names of the variables are made of letters, digits and underscores. -/
def PlainNames (sights : List Sight) : Prop :=
  ∀ s ∈ sights, ∀ n, s.construct = .variable n →
    ∀ c ∈ n, c.isAlpha = true ∨ c.isDigit = true ∨ c = '_'

end Oclint.Spec
