import Verif.Spec.NullChecks
import Verif.Spec.Semantics

/-! # Null checks that are not needed -/

namespace Oclint.Spec

/-- A null pointer constant under whatever conversions. -/
inductive NullUnderCasts : Stmt → Prop where
  | here {f x} : NullUnderCasts (.cast f .nullToPointer x)
  | deeper {f k x} : NullUnderCasts x → NullUnderCasts (.cast f k x)

/-- The second expression is the first without the conversions around it. -/
inductive Uncast : Stmt → Stmt → Prop where
  | done {e} : (∀ f k x, e ≠ .cast f k x) → Uncast e e
  | step {f k e x} : Uncast e x → Uncast (.cast f k e) x

/-- The condition is `p != NULL`, `NULL != p` or `p`. -/
def AsksFor (c p : Stmt) : Prop :=
  (∃ l r, c = .binary .ne l r ∧ ((NullUnderCasts l ∧ Uncast r p) ∨
    (¬ NullUnderCasts l ∧ NullUnderCasts r ∧ Uncast l p))) ∨
  ((∀ op l r, c ≠ .binary op l r) ∧ Uncast c p)

/-- `delete p`. -/
def DeletesIt (same : Stmt → Stmt → Bool) (p s : Stmt) : Prop :=
  ∃ a x, s = .deleteE a ∧ Uncast a x ∧ same x p = true

/-- `p = NULL`. -/
def ClearsIt (same : Stmt → Stmt → Bool) (p s : Stmt) : Prop :=
  ∃ l r x, s = .binary .assign l r ∧ NullUnderCasts r ∧ Uncast l x ∧ same x p = true

/-- `delete p;`, `{ delete p; }` or `{ delete p; p = NULL; }`. -/
def DeletesOnly (same : Stmt → Stmt → Bool) (p t : Stmt) : Prop :=
  DeletesIt same p t ∨ (∃ d, t = .compound [d] ∧ DeletesIt same p d) ∨
  (∃ d c, t = .compound [d, c] ∧ DeletesIt same p d ∧ ClearsIt same p c)

/-- The statements of a block, or the statement itself. -/
def statementsOf : Stmt → List Stmt
  | .compound l => l
  | t => [t]

/-- Asking for the pointer has no effect, and when the answer is no, neither have the statements that
delete it and set it to null. -/
def NullHarmless {σ V : Type} (W : World σ V) (c t : Stmt) : Prop :=
  ∀ s, ∃ v, eval W c s = some (.val v s) ∧ (W.truth v = false →
    ∀ x ∈ statementsOf t, ∃ w, eval W x s = some (.val w s))

/-- Asking for the object has no effect, and when the answer is no, the message to it has no effect
either and gives something false. -/
def NilHarmless {σ V : Type} (W : World σ V) (a m : Stmt) : Prop :=
  ∀ s, ∃ v, eval W a s = some (.val v s) ∧ (W.truth v = false →
    ∃ w, eval W m s = some (.val w s) ∧ W.truth w = false)

end Oclint.Spec
