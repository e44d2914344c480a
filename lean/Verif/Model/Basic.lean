/-!
# Common vocabulary of the model

`Str` stands for `std::string` / `const char *` contents, one `Char` per byte.
`Outcome` separates normal results from C++ exceptions and from undefined
behaviour, so that no theorem can hold merely because Lean functions are total.
-/

namespace Oclint

/-- Contents of a `std::string`; one `Char` per byte. -/
abbrev Str := List Char

/-- Identity of a rule object (models the pointer value `RuleBase*`). -/
abbrev RuleId := Nat

/-- Result of running a piece of C++ code. -/
inductive Outcome (α : Type) where
  /-- normal return -/
  | ok (a : α)
  /-- a `std::exception` escapes; `what` is its text -/
  | throws (what : Str)
  /-- undefined behaviour (null dereference, signed overflow, out of bounds access) -/
  | ub
  deriving Repr, DecidableEq

namespace Outcome

/-- Sequencing of C++ statements: exceptions and undefined behaviour propagate. -/
def bind {α β : Type} (x : Outcome α) (f : α → Outcome β) : Outcome β :=
  match x with
  | ok a => f a
  | throws w => throws w
  | ub => ub

instance : Monad Outcome where
  pure := ok
  bind := bind

instance : LawfulMonad Outcome := LawfulMonad.mk'
  (id_map := by intro α x; cases x <;> rfl)
  (pure_bind := by intros; rfl)
  (bind_assoc := by intro α β γ x f g; cases x <;> rfl)

@[simp] theorem pure_eq {α : Type} (a : α) : (pure a : Outcome α) = ok a := rfl
@[simp] theorem bind_ok {α β : Type} (a : α) (f : α → Outcome β) : (ok a >>= f) = f a := rfl
@[simp] theorem bind_throws {α β : Type} (w : Str) (f : α → Outcome β) :
    ((throws w : Outcome α) >>= f) = throws w := rfl
@[simp] theorem bind_ub {α β : Type} (f : α → Outcome β) : ((ub : Outcome α) >>= f) = ub := rfl

end Outcome

/-- Storing a mathematical integer into a 32-bit `int`: undefined behaviour unless it fits. -/
def checkInt32 (z : Int) : Outcome Int :=
  if -2147483648 ≤ z ∧ z ≤ 2147483647 then .ok z else .ub

end Oclint
