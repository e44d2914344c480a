import Verif.Model.RulesUnused

/-!
# What the rules about unused things report
-/

namespace Oclint.Spec
open Oclint

/-- Characters between class names in the configuration. -/
def IsSeparator (c : Char) : Prop := c = ',' ∨ c = ';' ∨ c = ' ' ∨ c = '\t' ∨ c = '\x00'

/-- `w` is one of the names in a configured list: a longest piece without separators. -/
def ListedName (input w : Str) : Prop :=
  ∃ pre post, input = pre ++ w ++ post ∧ w ≠ [] ∧ (∀ c ∈ w, ¬ IsSeparator c) ∧
    (pre = [] ∨ ∃ p c, pre = p ++ [c] ∧ IsSeparator c) ∧
    (post = [] ∨ ∃ c p, post = c :: p ∧ IsSeparator c)

/-- `name` is what a type is called: without qualifiers and from the first template argument on
nothing. -/
def CalledBy (type name : Str) : Prop :=
  ∃ quals args, type = quals ++ name ++ args ∧ '<' ∉ quals ++ name ∧ ' ' ∉ name ∧
    (quals = [] ∨ ∃ q, quals = q ++ [' ']) ∧ (args = [] ∨ ∃ a, args = '<' :: a)

/-- An unused local variable that has a name and is in no template. -/
def UnusedLocal (v : LocalVar) : Prop :=
  v.isUsed = false ∧ v.isReferenced = false ∧ v.isLocalVarDecl = true ∧
    v.isStaticDataMember = false ∧ v.name ≠ [] ∧ v.inFunction ≠ some false

/-- A context in which parameters have to be there even if they are not used. -/
inductive Excuses : DeclCtx → Prop where
  /-- a declaration -/
  | noBody {b t v} : Excuses (.function false b t v)
  | nowhereBody {b t v} : Excuses (.function b false t v)
  /-- a virtual method -/
  | virtual {a b t} : Excuses (.function a b t (some true))
  | block : Excuses .block
  /-- a method declaration -/
  | declared {m} : m.container ≠ .implementation → Excuses (.objcMethod m)
  /-- a method that the superclass has -/
  | inherited {m i s} : m.container = .implementation → m.classInterface = some i →
      i.superClass = some s → s.instanceMethod m.selector = true → Excuses (.objcMethod m)
  /-- a method that a protocol of the class has -/
  | protocol {m i p} : m.container = .implementation → m.classInterface = some i →
      p ∈ i.protocols → p.instanceMethod m.selector = true → Excuses (.objcMethod m)
  /-- an action -/
  | action {m} : m.hasIBAction = true → Excuses (.objcMethod m)
  /-- a class -/
  | record : Excuses .record

/-- What the rule means to excuse: of a class method, class methods are inherited, and a class alone
is no reason. -/
inductive ExcusesProperly : DeclCtx → Prop where
  | noBody {b t v} : ExcusesProperly (.function false b t v)
  | virtual {a b t} : ExcusesProperly (.function a b t (some true))
  | block : ExcusesProperly .block
  | declared {m} : m.container ≠ .implementation → ExcusesProperly (.objcMethod m)
  | inherited {m i s} : m.classInterface = some i → i.superClass = some s →
      (if m.isInstance then s.instanceMethod m.selector else s.classMethod m.selector) = true →
      ExcusesProperly (.objcMethod m)
  | protocol {m i p} : m.classInterface = some i → p ∈ i.protocols →
      (if m.isInstance then p.instanceMethod m.selector else p.classMethod m.selector) = true →
      ExcusesProperly (.objcMethod m)
  | action {m} : m.hasIBAction = true → ExcusesProperly (.objcMethod m)

/-- An unused parameter with a name that is not marked and not of a template. -/
def UnusedParam (p : Param) : Prop :=
  p.isUsed = false ∧ p.hasUnusedAttr = false ∧ p.name ≠ [] ∧
    ∀ a b v rest, p.contexts ≠ .function a b false v :: rest

end Oclint.Spec
