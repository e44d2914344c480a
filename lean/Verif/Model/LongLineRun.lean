import Verif.Model.Main
import Verif.Model.SourceLines

/-!
# The long line rule as part of a run

Connects the model of the long line rule with the model of the driver: the rule works on the units
that are compiled, and its state is the static maps of the suppression code.
-/

namespace Oclint

/-- What the carrier was told about a violation. -/
def asReport (v : Violation) : Report :=
  { path := v.path, startLine := v.startLine, startColumn := v.startColumn, endLine := v.endLine,
    endColumn := v.endColumn, message := v.message }

/-- `RuleBase.cpp:5-9`, `takeoff`, of the rule of `LongLineRule.cpp`, whose `apply` is that of
`AbstractSourceCodeReaderRule.cpp:15-31`. -/
def longLineTakeoff (apple : Bool) (cfg : Configurations) (rule : RuleId) (cache : SuppressCache)
    (u : SourceUnit) : Outcome (SuppressCache × List Report) := do
  let r ← sourceLineApply (longLineEachLine apple cfg rule u) ([], cache) u.buffer
  pure (r.2, r.1.map asReport)

end Oclint
