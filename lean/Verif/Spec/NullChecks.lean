import Verif.Spec.ShortNames
import Verif.Spec.Values

/-! # What the rules about null checks are supposed to find -/

namespace Oclint.Spec

/-- A null pointer constant: `0`, `NULL` or `nullptr` converted to a pointer, or `(void *)0` and the
like converted once more, as Objective-C's `nil`. -/
inductive NullConstant : Stmt → Prop where
  | direct {x} : NullConstant (.cast .implicit .nullToPointer x)
  | converted {e x} : Unparen e (.cast .cstyle .nullToPointer x) →
      NullConstant (.cast .implicit .bitCast e)

/-- A read of the variable `n`, possibly converted to `bool`. -/
inductive ReadOf (n : Str) : Stmt → Prop where
  | read {k d} : k ≠ .pointerToBoolean → d.name = n → ReadOf n (.cast .implicit k (.declRef d))
  | toBool {e} : ReadOf n e → ReadOf n (.cast .implicit .pointerToBoolean e)

/-- A read of the variable that stands for a condition. -/
inductive TruthOf (n : Str) : Stmt → Prop where
  | c {d} : d.name = n → TruthOf n (.cast .implicit .lvalueToRvalue (.declRef d))
  | cxx {e} : ReadOf n e → TruthOf n (.cast .implicit .pointerToBoolean e)

/-- One operand is a null pointer constant and the other is not; the other is a read of `n`. -/
def ComparesNull (n : Str) (l r : Stmt) : Prop :=
  (NullConstant l ∧ ¬ NullConstant r ∧ ReadOf n r) ∨ (¬ NullConstant l ∧ NullConstant r ∧ ReadOf n l)

/-- The condition asks whether the variable is null: `n == NULL`, `NULL == n` or `!n`. -/
inductive AsksNull (n : Str) : Stmt → Prop where
  | eq {l r} : ComparesNull n l r → AsksNull n (.binary .eq l r)
  | lnot {e} : TruthOf n e → AsksNull n (.unary .lnot e)

/-- The condition asks whether the variable is not null: `n != NULL`, `NULL != n` or `n`. -/
inductive AsksNonNull (n : Str) : Stmt → Prop where
  | ne {l r} : ComparesNull n l r → AsksNonNull n (.binary .ne l r)
  | truth {e} : TruthOf n e → AsksNonNull n e

/-- `n->m`. -/
def Arrow (n : Str) (x : Stmt) : Prop := ∃ b m, x = .member true b m ∧ ReadOf n b

/-- `[n m ...]`. -/
def MessageTo (n : Str) (x : Stmt) : Prop := ∃ c r sel args, x = .message c (some r) sel args ∧ ReadOf n r

/-- The operands of an expression that are evaluated whenever it is. -/
def alwaysEvaluated : Stmt → List Stmt
  | .binary .land l _ | .binary .lor l _ => [l]
  | .binary _ l r => [l, r]
  | .condOp c _ _ => [c]
  | .unary _ e | .paren e | .cast _ _ e | .member _ e _ | .deleteE e | .cleanups e => [e]
  | .call f args => f :: args
  | .message _ r _ args => r.toList ++ args
  | .throwE v => v.toList
  | _ => []

/-- Evaluating `e` evaluates `x`, when the conditions in it have the truth values `t`. -/
inductive Evaluates (t : Stmt → Bool) : Stmt → Stmt → Prop where
  | here {e} : Evaluates t e e
  | operand {e k x} : k ∈ alwaysEvaluated e → Evaluates t k x → Evaluates t e x
  | andRight {l r x} : t l = true → Evaluates t r x → Evaluates t (.binary .land l r) x
  | orRight {l r x} : t l = false → Evaluates t r x → Evaluates t (.binary .lor l r) x
  | condTrue {c a b x} : t c = true → Evaluates t a x → Evaluates t (.condOp c a b) x
  | condFalse {c a b x} : t c = false → Evaluates t b x → Evaluates t (.condOp c a b) x

/-- The conditions about `n` have the truth values they have when `n` is null. -/
def NullNow (t : Stmt → Bool) (n : Str) : Prop :=
  (∀ e, AsksNull n e → t e = true) ∧ ∀ e, AsksNonNull n e → t e = false

end Oclint.Spec
