import Verif.Spec.ShortNames

/-! # What the rules about switch statements are supposed to find -/

namespace Oclint.Spec

/-- A `case` or `default` label. -/
def CaseLabel (s : Stmt) : Prop := (∃ v x, s = .caseS v x) ∨ ∃ x, s = .defaultS x

/-- `LabelsOf forest ls`: `ls` are the `case` and `default` labels in the trees, in the order of the
source, without those that belong to a switch in them. -/
inductive LabelsOf : List Stmt → List Stmt → Prop where
  | nil : LabelsOf [] []
  | switchS {a c b r l} : LabelsOf r l → LabelsOf (.switchS a c b :: r) l
  | label {s r l} : CaseLabel s → LabelsOf (s.kids ++ r) l → LabelsOf (s :: r) (s :: l)
  | other {s r l} : ¬ CaseLabel s → (∀ a c b, s ≠ .switchS a c b) → LabelsOf (s.kids ++ r) l →
      LabelsOf (s :: r) l

/-- A statement that leaves the place it is at (the rule about missing breaks does not count
`goto`). -/
def LeavingStmt (s : Stmt) : Prop :=
  s = .breakS ∨ s = .continueS ∨ (∃ v, s = .returnS v) ∨ (∃ v, s = .throwE v) ∨ ∃ v, s = .atThrow v

/-- There is such a statement in `s`, no matter what it would leave. -/
def HasLeaving (s : Stmt) : Prop := ∃ x, Below [s] x ∧ LeavingStmt x

/-- A statement of a switch body that ends the section of a label: a leaving statement, or a block
(or expression with temporaries) with one in it. -/
def EndsSection (s : Stmt) : Prop :=
  LeavingStmt s ∨ (((∃ b, s = .compound b) ∨ ∃ e, s = .cleanups e) ∧ HasLeaving s)

/-- The section that starts with the label `l` and goes on with `rest` is not ended. -/
def OpenSection (l : Stmt) (rest : List Stmt) : Prop :=
  CaseLabel l ∧ ¬ HasLeaving l ∧ ∀ x ∈ rest, ¬ CaseLabel x ∧ ¬ EndsSection x

/-- The section of a label runs into the next label. -/
def RunsIntoNext (body : List Stmt) : Prop :=
  ∃ pre l mid l' post, body = pre ++ l :: (mid ++ l' :: post) ∧ OpenSection l mid ∧ CaseLabel l'

/-- The last section is not ended. -/
def LastOpen (body : List Stmt) : Prop := ∃ pre l rest, body = pre ++ l :: rest ∧ OpenSection l rest

end Oclint.Spec
