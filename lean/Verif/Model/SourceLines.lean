import Verif.Model.Suppress
import Verif.Model.Registry
import Verif.Model.Text

/-!
# Source line rules

Models `oclint-rules/lib/AbstractSourceCodeReaderRule.cpp` and
`oclint-rules/rules/size/LongLineRule.cpp`.

Simplification: a line's size is not narrowed to `int` (it differs from 2^31 characters on).
-/

namespace Oclint

/-- `llvm::StringRef::split('\n')`. -/
def splitNewline : Str → Str × Str
  | [] => ([], [])
  | c :: cs => if c = '\n' then ([], cs) else ((c :: (splitNewline cs).1), (splitNewline cs).2)

/-- The rest after a split of a nonempty string is shorter. -/
theorem splitNewline_length (c : Char) (cs : Str) :
    (splitNewline (c :: cs)).2.length < (c :: cs).length := by
  induction cs generalizing c with
  | nil => by_cases h : c = '\n' <;> simp [splitNewline, h]
  | cons d ds ih =>
    have := ih d
    by_cases h : c = '\n'
    · simp [splitNewline, h]
    · simp only [splitNewline, if_neg h, List.length_cons] at this ⊢; omega

/-- The loop of `AbstractSourceCodeReaderRule.cpp:22-30`: the calls of `eachLine`, in order. -/
def eachLineCalls (lineNumber : Int) (remaining : Str) : List (Int × Str) :=
  match remaining with
  | [] => []
  | c :: cs =>
    (lineNumber, (splitNewline (c :: cs)).1) ::
      eachLineCalls (lineNumber + 1) (splitNewline (c :: cs)).2
termination_by remaining.length
decreasing_by exact splitNewline_length c cs

/-- State a rule application works on: the unit's violation set and the static maps. -/
abbrev RuleState := ViolationSet × SuppressCache

/-- `LongLineRule.cpp:58-68`, `eachLine`. -/
def longLineEachLine (apple : Bool) (cfg : Configurations) (rule : RuleId) (u : SourceUnit)
    (st : RuleState) (lineNumber : Int) (line : Str) : Outcome RuleState := do
  let (threshold, _) ← cfg.intForKey "LONG_LINE".toList 100
  let currentLineSize : Int := line.length
  if currentLineSize > threshold then
    pure (addViolationLine apple "long line".toList st.2 u st.1 lineNumber 1 lineNumber
      currentLineSize rule
      ("Line with ".toList ++ toStringInt currentLineSize ++ " characters exceeds limit of ".toList
        ++ toStringInt threshold))
  else pure st

/-- `AbstractSourceCodeReaderRule.cpp:15-31`, `apply`, for a rule with the given `eachLine`. -/
def sourceLineApply {σ : Type} (eachLine : σ → Int → Str → Outcome σ) (st : σ) (buffer : Str) :
    Outcome σ :=
  (eachLineCalls 1 buffer).foldlM (fun st call => eachLine st call.1 call.2) st

end Oclint
