import Verif.Model.Ast

/-!
# Values of integer expressions

The C and C++ meaning of side-effect free expressions over 32 bit signed integers, for the claims
about arithmetic.  `none` means undefined behaviour or an expression outside of the fragment.  Not
taken from oclint.
-/

namespace Oclint.Spec

/-- Taking parentheses off `e` can give `x`, which is not in parentheses itself. -/
inductive Unparen : Stmt → Stmt → Prop where
  | done {x} : (∀ y, x ≠ .paren y) → Unparen x x
  | step {e x} : Unparen e x → Unparen (.paren e) x

/-- A 32 bit signed integer. -/
abbrev I32 := BitVec 32

/-- The integer as a 32 bit number, if it is in range. -/
def toI32 (i : Int) : Option I32 :=
  if -(2 ^ 31) ≤ i ∧ i < 2 ^ 31 then some (BitVec.ofInt 32 i) else none

/-- The value of a comparison. -/
def ofTest (b : Bool) : I32 := if b then 1#32 else 0#32

/-- Unary operators without side effects. -/
def unaryValue : UnOp → I32 → Option I32
  | .lnot, v => some (ofTest (decide (v = 0#32)))
  | .not, v => some (~~~v)
  | .plus, v => some v
  | .minus, v => toI32 (-v.toInt)
  | _, _ => none

/-- Binary operators on two values.  Division rounds towards zero. -/
def binaryValue : BinOp → I32 → I32 → Option I32
  | .add, a, b => toI32 (a.toInt + b.toInt)
  | .sub, a, b => toI32 (a.toInt - b.toInt)
  | .mul, a, b => toI32 (a.toInt * b.toInt)
  | .div, a, b => if b = 0#32 then none else toI32 (a.toInt.tdiv b.toInt)
  | .rem, a, b =>
    if b = 0#32 then none
    else (toI32 (a.toInt.tdiv b.toInt)).bind fun _ => toI32 (a.toInt.tmod b.toInt)
  | .eq, a, b => some (ofTest (decide (a = b)))
  | .ne, a, b => some (ofTest (decide (a ≠ b)))
  | .lt, a, b => some (ofTest (decide (a.toInt < b.toInt)))
  | .gt, a, b => some (ofTest (decide (b.toInt < a.toInt)))
  | .le, a, b => some (ofTest (decide (a.toInt ≤ b.toInt)))
  | .ge, a, b => some (ofTest (decide (b.toInt ≤ a.toInt)))
  | .band, a, b => some (a &&& b)
  | .bor, a, b => some (a ||| b)
  | .bxor, a, b => some (a ^^^ b)
  | _, _, _ => none

/-- The value of an expression; `env` holds the variables. -/
def intValue (env : Nat → I32) : Stmt → Option I32
  | .intLit n => toI32 n
  | .boolLit b => some (ofTest b)
  | .declRef d => some (env d.id)
  | .paren e => intValue env e
  | .cast .implicit .lvalueToRvalue e => intValue env e
  | .unary op e => (intValue env e).bind (unaryValue op)
  | .binary .land a b => (intValue env a).bind fun v =>
      if v = 0#32 then some (ofTest false)
      else (intValue env b).map fun w => ofTest (decide (w ≠ 0#32))
  | .binary .lor a b => (intValue env a).bind fun v =>
      if v = 0#32 then (intValue env b).map fun w => ofTest (decide (w ≠ 0#32))
      else some (ofTest true)
  | .binary op a b => (intValue env a).bind fun v => (intValue env b).bind fun w => binaryValue op v w
  | .condOp c t f => (intValue env c).bind fun v => if v = 0#32 then intValue env f else intValue env t
  | _ => none

end Oclint.Spec
