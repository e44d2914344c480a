import Verif.Tests.Support

/-!
# Tests of the repository, cuda

Written by `tools/repotests.py`; see `Verif/Tests/Support.lean`.
-/

namespace Oclint

set_option linter.all false

/-! ## `oclint-rules/test/cuda/CudaBranchDivergenceRuleTest.cpp` -/

-- IfStmtWithElse
example : (reportedAt 0 (branchDivergenceRule ⟨false, true, false, true⟩ [⟨0, true, true, true, true⟩] (fun i => ([(.compound [(.ifS none (.binary .eq (.cast .implicit .lvalueToRvalue (.member false (.declRef ⟨0, "threadIdx".toList⟩) "x".toList)) (.intLit 1)) (.compound []) (some (.compound [])))])] : List Stmt).getD i .nullS))
    [(.ifS none (.binary .eq (.cast .implicit .lvalueToRvalue (.member false (.declRef ⟨0, "threadIdx".toList⟩) "x".toList)) (.intLit 1)) (.compound []) (some (.compound [])))]) = true := by decide +kernel

-- IfStmtWithoutElse
example : ((branchDivergenceRule ⟨false, true, false, true⟩ [⟨0, true, true, true, true⟩] (fun i => ([(.compound [(.ifS none (.binary .eq (.cast .implicit .lvalueToRvalue (.member false (.declRef ⟨0, "threadIdx".toList⟩) "x".toList)) (.intLit 1)) (.compound []) none)])] : List Stmt).getD i .nullS)).isEmpty) = true := by decide +kernel

-- IfStmtWithElseInHostFunction
example : ((branchDivergenceRule ⟨false, true, false, true⟩ [⟨0, true, true, true, false⟩] (fun i => ([(.compound [(.ifS none (.binary .eq (.cast .implicit .lvalueToRvalue (.declRef ⟨0, "x".toList⟩)) (.intLit 1)) (.compound []) (some (.compound [])))])] : List Stmt).getD i .nullS)).isEmpty) = true := by decide +kernel

end Oclint
