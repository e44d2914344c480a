import Verif.Spec.Main
import Verif.Spec.Run
import Verif.Spec.Suppress
import Verif.Spec.Options
import Verif.Model.LongLineRun

/-!
# Specification of a run of the long line rule
-/

namespace Oclint.Spec
open Oclint

/-- The line breaks the limit and nothing in its file silences the rule there. -/
def TooLong (apple : Bool) (limit : Int) (u : SourceUnit) (number : Nat) (line : Str) : Prop :=
  limit < line.length ∧ ¬ LineSuppressed apple u number ∧ ¬ RangeSuppressed u "long line".toList number

open Classical in
/-- The violations for the lines of a file. -/
noncomputable def tooLongLines (apple : Bool) (rule : RuleId) (limit : Int) (u : SourceUnit)
    (lines : List Str) : List Violation :=
  ((lines.zipIdx 1).filter fun p => decide (TooLong apple limit u p.2 p.1)).map
    fun p => longLine rule u.mainPath limit p.2 p.1

/-- A run in which the long line rule with this limit is the only one, `rs` are the results of
compiling, and the files that compile are different files. -/
structure LongLinesOnly {κ : Type} (m : Machine SourceUnit SuppressCache κ) (st : OptionState)
    (apple : Bool) (rule : RuleId) (limit : Int) (rs : List (CompileResult SourceUnit))
    (linesOf : SourceUnit → List Str) : Prop where
  takeoff : m.takeoff = fun r => longLineTakeoff apple st.configurations r
  fresh : m.initialRules = SuppressCache.empty
  only : runningRules m st = [rule]
  limit : ∃ cfg, st.configurations.intForKey "LONG_LINE".toList 100 = .ok (limit, cfg)
  checkerOff : st.argClangChecker.value = false
  compiled : ∃ cwd, CompileAll m.toolchain m.mainExecutable false m.env.cwd
    (jobsOf m.toolchain m.db m.sources) rs cwd
  lines : ∀ u ∈ rs.filterMap unitOf, IsLines u.buffer (linesOf u)
  named : ∀ u ∈ rs.filterMap unitOf, u.mainPath ≠ []
  distinct : (rs.filterMap unitOf).Pairwise fun u v => u.mainPath ≠ v.mainPath

end Oclint.Spec
