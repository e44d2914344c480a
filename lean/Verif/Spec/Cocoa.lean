import Verif.Model.RulesCocoa
import Verif.Spec.Suppress
import Verif.Spec.ShortNames

/-!
# What the rules about Objective-C classes report
-/

namespace Oclint.Spec
open Oclint

/-- Some method this one overrides asks for a call of the base method. -/
def MustCallBase (m : OverridingMethod) : Prop :=
  m.isOverriding = true ∧ ∃ d ∈ m.overridden, Requested "enforce".toList "base method".toList d

/-- The body sends the method's own message to `super`. -/
def CallsBase (m : OverridingMethod) : Prop :=
  ∃ k, (m.selector, k) ∈ m.sends ∧ (k = .superInstance ∨ k = .superClass)

/-- The text of a comment, if the annotation that was found has one. -/
def advice : Option (Option Str) → Str
  | some (some c) => if c = [] then [] else " instead use ".toList ++ c
  | _ => []

/-- The called thing, if it is known: what it is, its name and its declaration. -/
inductive Calls : AnyCall → Str → Str → DeclInfo → Prop where
  | function (n d) : Calls (.function (some (n, d))) "function".toList n d
  | method (s d) : Calls (.message s (some d)) "method".toList s d

/-- `a` is the class or one it inherits from. -/
inductive ClassOrAbove : ObjcClass → ObjcClass → Prop where
  | self (c) : ClassOrAbove c c
  | above {n s a} : ClassOrAbove s a → ClassOrAbove (.mk n (some s)) a

/-- The message is for a protected method, and the receiver's class is known. -/
def SendsProtected (s : ClassSend) (r : ObjcClass) : Prop :=
  ∃ d k, s.method = some (d, k) ∧ Requested "enforce".toList "protected method".toList d ∧
    s.receiver = some r

/-- The class's name occurs on the way up. -/
def Inherits (c : ObjcClass) (name : Str) : Prop := ∃ a, ClassOrAbove c a ∧ a.name = name

/-- A method that is meant to be abstract. -/
def IsAbstract (m : DeclaredMethod) : Prop :=
  Requested "enforce".toList "abstract method".toList m.decl

/-- An assignment, plain or compound, and what it assigns to. -/
inductive Assignment : Stmt → Stmt → Prop where
  | plain (l r) : Assignment (.binary .assign l r) l
  | compound (k l r) : Assignment (.binary (.compoundAssign k) l r) l

/-- The selector is one of the variable's accessors: its name without underscores, or `set`, that
name with a capital, and a colon. -/
inductive AccessorOf : Str → Str → Prop where
  | getter (ivar) : AccessorOf ivar (ivar.filter fun c => c ≠ '_')
  | setter (ivar c cs) : (ivar.filter fun c => c ≠ '_') = c :: cs →
      AccessorOf ivar ("set".toList ++ c.toUpper :: cs ++ ":".toList)
  | emptySetter (ivar) : (ivar.filter fun c => c ≠ '_') = [] → AccessorOf ivar "set:".toList

/-- The left hand side without parentheses is the variable itself. -/
inductive IsTarget : Stmt → Stmt → Prop where
  | self (s) : IsTarget s s
  | paren {s t} : IsTarget s t → IsTarget (.paren s) t

end Oclint.Spec
