import Verif.Model.Registry

/-!
# Rule selection

Models `oclint-driver/lib/RulesetFilter.cpp` and the templates of `RulesetFilter.h`.
`std::set<std::string>` is a list without duplicates.
-/

namespace Oclint

/-- `std::set::insert`. -/
def setInsert (s : List Str) (x : Str) : List Str := if x ∈ s then s else s ++ [x]

/-- `find` followed by `erase` when found. -/
def setErase (s : List Str) (x : Str) : List Str := s.filter fun y => decide (y ≠ x)

/-- `RulesetFilter.h`: members `_enabled` and `_disabled`. -/
structure RulesetFilter where
  enabled : List Str
  disabled : List Str
  deriving Repr, DecidableEq

namespace RulesetFilter

/-- Initial value of the static `filter` (`Options.cpp:112`). -/
def empty : RulesetFilter := ⟨[], []⟩

/-- `RulesetFilter.cpp:12-20`, `enableRule`. -/
def enableRule (f : RulesetFilter) (name : Str) : RulesetFilter :=
  { enabled := setInsert f.enabled name, disabled := setErase f.disabled name }

/-- `RulesetFilter.cpp:22-30`, `disableRule`. -/
def disableRule (f : RulesetFilter) (name : Str) : RulesetFilter :=
  { disabled := setInsert f.disabled name, enabled := setErase f.enabled name }

/-- `RulesetFilter.h`, template `enableRules`. -/
def enableRules (f : RulesetFilter) (names : List Str) : RulesetFilter := names.foldl enableRule f

/-- `RulesetFilter.h`, template `disableRules`. -/
def disableRules (f : RulesetFilter) (names : List Str) : RulesetFilter :=
  names.foldl disableRule f

/-- Condition of `RulesetFilter.cpp:41-42`. -/
def accepts (f : RulesetFilter) (name : Str) : Bool :=
  (f.enabled.isEmpty || decide (name ∈ f.enabled)) && decide (name ∉ f.disabled)

/-- `RulesetFilter.cpp:32-49`, `filteredRules`; `identifierOf` gives the rule's
`identifier()`, which rules override (`RulesetFilter.cpp:7-10`). -/
def filteredRules (f : RulesetFilter) (reg : Registry) (identifierOf : RuleId → Str) :
    Outcome (List RuleId) :=
  (List.range reg.numberOfRules).foldlM
    (fun acc (idx : Nat) => do
      match ← reg.getRuleAtIndex idx with
      | none => .ub
      | some r =>
        if f.accepts (identifierOf r) then pure (acc ++ [r]) else pure acc)
    []

/-- `RulesetFilter.cpp:51-57`, `filteredRuleNames`. -/
def filteredRuleNames (f : RulesetFilter) (reg : Registry) (identifierOf : RuleId → Str) :
    Outcome (List Str) := do
  let rules ← f.filteredRules reg identifierOf
  pure (rules.map fun r => identifierOf r)

end RulesetFilter

end Oclint
