import Verif.Model.RulesCxx
import Verif.Spec.ShortNames

/-!
# What the rules about C++ classes report
-/

namespace Oclint.Spec
open Oclint

/-- `c` is among the bases, inherited publicly and defined. -/
inductive PublicBase : CxxBases → CxxClass → Prop where
  | here {c rest} : c.hasDefinition = true → PublicBase (.base .pub c rest) c
  | unknown {a rest c} : PublicBase rest c → PublicBase (.unknown a rest) c
  | there {a d rest c} : PublicBase rest c → PublicBase (.base a d rest) c

/-- `a` is an ancestor of a class with these bases through public inheritance. -/
inductive PublicAncestor : CxxBases → CxxClass → Prop where
  | base {bs a} : PublicBase bs a → PublicAncestor bs a
  | trans {bs c a} : PublicBase bs c → PublicAncestor c.bases a → PublicAncestor bs a

/-- The same through classes that are not polymorphic. -/
inductive PlainAncestor : CxxBases → CxxClass → Prop where
  | base {bs a} : PublicBase bs a → PlainAncestor bs a
  | trans {bs c a} : PublicBase bs c → c.polymorphic = false → PlainAncestor c.bases a →
      PlainAncestor bs a

/-- `delete` through a pointer to this class is not possible from outside or finds the right
destructor. -/
def SafeToDelete (c : CxxClass) : Prop :=
  ∃ d, c.destructor = some d ∧ (d.isVirtual = true ∨ d.access = .prot)

mutual
/-- How often the class occurs among the plain ancestors, that is by how many paths it is reached. -/
def paths (target : CxxClass → Bool) : CxxBases → Nat
  | .nil => 0
  | .unknown _ rest => paths target rest
  | .base a c rest => (if a = .pub then pathsVia target c else 0) + paths target rest
/-- Paths that go on from a public base. -/
def pathsVia (target : CxxClass → Bool) : CxxClass → Nat
  | .mk n d p dtor bases =>
    if d then (if target (.mk n d p dtor bases) then 1 else 0) + (if p then 0 else paths target bases)
    else 0
end

/-- A method that is virtual and has a parameter with a default argument. -/
def DefaultOnVirtual (d : MemberDecl) : Prop :=
  ∃ id a s args, d = .method id a s true args ∧ true ∈ args

/-- A private static variable or method. -/
def PrivateStatic (d : MemberDecl) : Prop :=
  (∃ id, d = .var id .priv true) ∨ ∃ id v args, d = .method id .priv true v args

/-- An `if` with both branches. -/
def TwoWay (s : Stmt) : Prop := ∃ p c t e, s = .ifS p c t (some e)

end Oclint.Spec
