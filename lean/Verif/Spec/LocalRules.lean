import Verif.Spec.ShortNames
import Verif.Spec.Semantics

/-!
# What the rules about parentheses, local variables, early exits and parameters report
-/

namespace Oclint.Spec
open Oclint

/-- A place where an expression stands by itself, so that parentheses around it change nothing. -/
inductive StandsAlone : Stmt → Stmt → Prop where
  | condition (p c t e) : StandsAlone (.ifS p c t e) c
  | returned (x) : StandsAlone (.returnS (some x)) x
  | initial (d x) : StandsAlone (.varD d (some x)) x

/-- The same with the expression replaced. -/
inductive AloneReplaced (a b : Stmt) : Stmt → Stmt → Prop where
  | condition (p t e) : AloneReplaced a b (.ifS p a t e) (.ifS p b t e)
  | returned : AloneReplaced a b (.returnS (some a)) (.returnS (some b))
  | initial (d) : AloneReplaced a b (.varD d (some a)) (.varD d (some b))

/-- A declaration of something with a name. -/
inductive Declares : Stmt → Str → Prop where
  | var (d i) : Declares (.varD d i) d.name
  | other (d) : Declares (.otherD (some d)) d.name

/-- Statements after which control goes elsewhere. -/
inductive Leaves : Stmt → Prop where
  | brk : Leaves .breakS
  | cont : Leaves .continueS
  | goto (l) : Leaves (.gotoS l)
  | indirect (t) : Leaves (.indirectGoto t)
  | ret (v) : Leaves (.returnS v)

/-- The C loops and their bodies. -/
inductive LoopBody : Stmt → Stmt → Prop where
  | forS (i c n b) : LoopBody (.forS i c n b) b
  | whileS (c b) : LoopBody (.whileS c b) b
  | doS (b c) : LoopBody (.doS b c) b

/-- An `if` at the end of which control goes elsewhere anyway: it comes right before a statement
that leaves, or it is all there is of a loop body, or the last statement of one. -/
inductive BeforeExit : Stmt → Stmt → Prop where
  | block (pre x last) : Leaves last → BeforeExit (.compound (pre ++ [x, last])) x
  | loop {l b pre x} : LoopBody l b → b = .compound (pre ++ [x]) → BeforeExit l x
  | bare {l x} : LoopBody l x → (∀ b, x ≠ .compound b) → BeforeExit l x

/-- What is long: no `else`, and more lines than the limit. -/
def LongIf (range : Stmt → Nat × Nat) (threshold : Int) (s : Stmt) : Prop :=
  ∃ p c t, s = .ifS p c t none ∧ threshold < ((range s).2 : Int) - (range s).1 + 1

/-- Lines are numbered by positive `int`s and a statement does not end before it starts. -/
def SoundRange (range : Stmt → Nat × Nat) : Prop :=
  ∀ s, 1 ≤ (range s).1 ∧ (range s).1 ≤ (range s).2 ∧ (range s).2 ≤ 2147483647

/-- `if (!c) leave; body` instead of `if (c) body`. -/
def leaveEarly (p : Option Stmt) (c body leave : Stmt) : List Stmt :=
  [.ifS p (.unary .lnot c) leave none, body]

/-- The loop with another body. -/
inductive BodyReplaced (b b' : Stmt) : Stmt → Stmt → Prop where
  | forS (i c n) : BodyReplaced b b' (.forS i c n b) (.forS i c n b')
  | whileS (c) : BodyReplaced b b' (.whileS c b) (.whileS c b')
  | doS (c) : BodyReplaced b b' (.doS b c) (.doS b' c)

/-- A plain assignment to this declaration. -/
def PlainAssignment (d : DeclId) (s : Stmt) : Prop := ∃ r, s = .binary .assign (.declRef d) r

end Oclint.Spec
