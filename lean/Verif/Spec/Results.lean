import Verif.Model.Results
import Mathlib.Data.Finset.Card

/-!
# Specifications for collected results

Written without reference to the loops, hash buckets or memo fields of the model.
-/

namespace Oclint.Spec
open Oclint

/-- One event of a run that changes the result collector. -/
inductive Event where
  | unit (s : ViolationSet)
  | error (v : Violation)
  | warning (v : Violation)
  | checkerBug (v : Violation)
  deriving Repr, DecidableEq

/-- What a user expects to be in a channel after the events happened: everything that was put
there, in order. -/
def expected (ch : Channel) (evs : List Event) : List Violation :=
  evs.flatMap fun e =>
    match ch, e with
    | .violations, .unit s => s
    | .errors, .error v => [v]
    | .warnings, .warning v => [v]
    | .checkerBugs, .checkerBug v => [v]
    | _, _ => []

/-- The distinct elements of a list at the place of their first occurrence. -/
def firsts : List Violation → List Violation
  | [] => []
  | v :: vs => v :: (firsts vs).filter (fun w => decide (w ≠ v))

/-- Applying an event to the collector through the API of `ResultCollector`. -/
def applyEvent (c : ResultCollector) : Event → ResultCollector
  | .unit s => c.add s
  | .error v => c.addError v
  | .warning v => c.addWarning v
  | .checkerBug v => c.addCheckerBug v

/-- The collector after a list of events, starting from a fresh one. -/
def collectorAfter (evs : List Event) : ResultCollector :=
  evs.foldl applyEvent ResultCollector.empty

/-- A step in the life of a de-duplicating view: something is collected, or a question asked. -/
inductive Step where
  | event (e : Event)
  | ask (ch : Channel)
  deriving Repr, DecidableEq

/-- The events among the steps. -/
def eventsOf (steps : List Step) : List Event :=
  steps.filterMap fun s => match s with | .event e => some e | .ask _ => none

/-- Running a history on collector plus memo fields. -/
def runStep {κ : Type} [DecidableEq κ] (h : Violation → κ) (st : ResultCollector × UniqueMemo) :
    Step → ResultCollector × UniqueMemo
  | .event e => (applyEvent st.1 e, st.2)
  | .ask ch => (st.1, (uniqueAll h st.1 st.2 ch).2)

/-- State after a history that starts with a fresh collector and a fresh view. -/
def stateAfter {κ : Type} [DecidableEq κ] (h : Violation → κ) (steps : List Step) :
    ResultCollector × UniqueMemo :=
  steps.foldl (runStep h) (ResultCollector.empty, UniqueMemo.empty)

/-- The answer a user sees when asking `ch` after a history. -/
def answerAfter {κ : Type} [DecidableEq κ] (h : Violation → κ) (steps : List Step) (ch : Channel) :
    List Violation :=
  (uniqueAll h (stateAfter h steps).1 (stateAfter h steps).2 ch).1

/-- Number of distinct file paths among violations. -/
def distinctPaths (vs : List Violation) : Nat := (vs.map Violation.path).toFinset.card

/-- How many violations have a rule of priority `p`. -/
def countWithPriority (priorityOf : RuleId → Int) (p : Int) (vs : List Violation) : Nat :=
  (vs.filter fun v => decide (v.rule.map priorityOf = some p)).length

end Oclint.Spec
