import Verif.Spec.TreeRun

/-!
# Specification of runs over parts of the sources
-/

namespace Oclint.Spec
open Oclint

variable {U σ κ : Type}

/-- The directories of the jobs are found wherever one stands, as absolute paths are. -/
def Settled (tc : Toolchain U) (jobs : List (Str × CompileCommand)) : Prop :=
  ∀ job ∈ jobs, ∀ dir, JobDirectory job dir → ∀ here there, tc.chdir here dir = tc.chdir there dir

/-- The same program, asked about other sources. -/
def over (m : Machine U σ κ) (sources : List Str) : Machine U σ κ := { m with sources := sources }

end Oclint.Spec
