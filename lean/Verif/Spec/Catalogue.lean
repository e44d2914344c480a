import Verif.Model.Catalogue
import Verif.Spec.Suppress
import Verif.Spec.Reporters

/-!
# Specifications for the catalogue of rules
-/

namespace Oclint.Spec
open Oclint

/-- A rule object of the catalogue. -/
def IsShipped (r : RuleId) : Prop := r < shippedRules.length

/-- Letters, blanks, hyphens and slashes. -/
def PlainWords (s : Str) : Prop := ∀ c ∈ s, c.isAlpha = true ∨ c = ' ' ∨ c = '-' ∨ c = '/'

/-- The last request about a rule. -/
def lastAsked (asked : List (Bool × RuleId)) (r : RuleId) : Option Bool :=
  (asked.reverse.find? fun q => decide (q.2 = r)).map Prod.fst

/-- A rule is wanted unless the last request about it is against it; and if the last request about
some rule is for it, then only such rules are wanted. -/
def Wanted (asked : List (Bool × RuleId)) (r : RuleId) : Prop :=
  lastAsked asked r ≠ some false ∧
    ((∃ r', lastAsked asked r' = some true) → lastAsked asked r = some true)

/-- The annotation against a rule. -/
def suppressText (r : RuleId) : Str :=
  "oclint:suppress[".toList ++ shippedAttribute r ++ "]".toList

/-- The rule whose violations have no limit. -/
def Unlimited (r : RuleId) : Prop := (shippedInfo r).name = chars! "branch divergence"

instance (r : RuleId) : Decidable (Unlimited r) := inferInstanceAs (Decidable (_ = _))

/-- The number a text about a threshold names as the default. -/
def StatesDefault (text value : Str) : Prop :=
  (∃ before, text = before ++ "default value is ".toList ++ value ++ ".".toList) ∧
    value ≠ [] ∧ ∀ c ∈ value, c.isDigit = true

/-- The documentation of the rule called `rule` states a default for `key`, and what `f` computes from a
configuration without `key` is what it computes with the stated value configured. -/
def DefaultAsStated {α : Type} (rule key : Str) (f : Configurations → α) : Prop :=
  ∃ s ∈ shippedRules, s.name = rule ∧ ∃ text value, (key, text) ∈ s.thresholds ∧
    StatesDefault text value ∧
    ∀ cfg : Configurations, cfg.hasKey key = false → f cfg = f (cfg.addConfiguration key value)

/-- Rules for Objective-C only. -/
def objCRules : List Str :=
  [chars! "broken nil check", chars! "misplaced nil check",
    chars! "throw exception from finally block", chars! "missing hash method",
    chars! "missing call to base method", chars! "calling protected method",
    chars! "missing abstract method implementation", chars! "use boxed expression",
    chars! "use container literal", chars! "use number literal", chars! "use object subscripting",
    chars! "redundant nil check"]

/-- Rules for C++ only. -/
def cxxRules : List Str :=
  [chars! "base class destructor should be virtual or protected",
    chars! "destructor of virtual class", chars! "avoid default arguments on virtual methods",
    chars! "unnecessary null check for dealloc"]

/-- Rules for C and C++. -/
def pointerRules : List Str := [chars! "broken null check", chars! "misplaced null check"]

/-- The rule called `name` is meant for the language. -/
def MeantFor (name : Str) : Language → Prop
  | .c => name ∉ objCRules ∧ name ∉ cxxRules
  | .cxx => name ∉ objCRules
  | .objC => name ∉ cxxRules ∧ name ∉ pointerRules

instance (name : Str) (l : Language) : Decidable (MeantFor name l) := by
  cases l <;> unfold MeantFor <;> infer_instance

/-- What the `PropertyTest`s in `oclint-rules/test` demand: name, priority and category. -/
def testedRules : List (Str × Int × Str) :=
  [(chars! "bitwise operator in conditional", 2, chars! "basic"),
   (chars! "broken null check", 1, chars! "basic"),
   (chars! "broken nil check", 2, chars! "basic"),
   (chars! "broken oddness check", 2, chars! "basic"),
   (chars! "collapsible if statements", 3, chars! "basic"),
   (chars! "constant conditional operator", 2, chars! "basic"),
   (chars! "constant if expression", 2, chars! "basic"),
   (chars! "dead code", 2, chars! "basic"),
   (chars! "double negative", 2, chars! "basic"),
   (chars! "for loop should be while loop", 3, chars! "basic"),
   (chars! "goto statement", 3, chars! "basic"),
   (chars! "jumbled incrementer", 2, chars! "basic"),
   (chars! "misplaced null check", 1, chars! "basic"),
   (chars! "misplaced nil check", 3, chars! "basic"),
   (chars! "multiple unary operator", 2, chars! "basic"),
   (chars! "return from finally block", 2, chars! "basic"),
   (chars! "throw exception from finally block", 2, chars! "basic"),
   (chars! "missing hash method", 1, chars! "cocoa"),
   (chars! "missing call to base method", 1, chars! "cocoa"),
   (chars! "calling prohibited method", 1, chars! "cocoa"),
   (chars! "calling protected method", 1, chars! "cocoa"),
   (chars! "missing abstract method implementation", 1, chars! "cocoa"),
   (chars! "avoid branching statement as last in loop", 2, chars! "convention"),
   (chars! "base class destructor should be virtual or protected", 2, chars! "convention"),
   (chars! "unnecessary default statement in covered switch statement", 3, chars! "convention"),
   (chars! "ill-placed default label in switch statement", 3, chars! "convention"),
   (chars! "destructor of virtual class", 2, chars! "convention"),
   (chars! "inverted logic", 3, chars! "convention"),
   (chars! "missing break in switch statement", 2, chars! "convention"),
   (chars! "non case label in switch statement", 3, chars! "convention"),
   (chars! "ivar assignment outside accessors or init", 2, chars! "convention"),
   (chars! "parameter reassignment", 3, chars! "convention"),
   (chars! "prefer early exits and continue", 3, chars! "convention"),
   (chars! "missing default in switch statements", 3, chars! "convention"),
   (chars! "too few branches in switch statement", 3, chars! "convention"),
   (chars! "branch divergence", 10, chars! "cuda"),
   (chars! "avoid default arguments on virtual methods", 3, chars! "design"),
   (chars! "avoid private static members", 3, chars! "design"),
   (chars! "feature envy", 3, chars! "design"),
   (chars! "empty catch statement", 2, chars! "empty"),
   (chars! "empty do/while statement", 2, chars! "empty"),
   (chars! "empty else block", 2, chars! "empty"),
   (chars! "empty finally statement", 2, chars! "empty"),
   (chars! "empty for statement", 2, chars! "empty"),
   (chars! "empty if statement", 2, chars! "empty"),
   (chars! "empty switch statement", 2, chars! "empty"),
   (chars! "empty try statement", 2, chars! "empty"),
   (chars! "empty while statement", 2, chars! "empty"),
   (chars! "use boxed expression", 3, chars! "migration"),
   (chars! "use container literal", 3, chars! "migration"),
   (chars! "use number literal", 3, chars! "migration"),
   (chars! "use object subscripting", 3, chars! "migration"),
   (chars! "long variable name", 3, chars! "naming"),
   (chars! "short variable name", 3, chars! "naming"),
   (chars! "redundant conditional operator", 3, chars! "redundant"),
   (chars! "redundant if statement", 3, chars! "redundant"),
   (chars! "redundant local variable", 3, chars! "redundant"),
   (chars! "redundant nil check", 3, chars! "redundant"),
   (chars! "unnecessary else statement", 3, chars! "redundant"),
   (chars! "unnecessary null check for dealloc", 3, chars! "redundant"),
   (chars! "useless parentheses", 3, chars! "redundant"),
   (chars! "high cyclomatic complexity", 2, chars! "size"),
   (chars! "long class", 3, chars! "size"),
   (chars! "long line", 3, chars! "size"),
   (chars! "long method", 3, chars! "size"),
   (chars! "high npath complexity", 2, chars! "size"),
   (chars! "high ncss method", 2, chars! "size"),
   (chars! "deep nested block", 3, chars! "size"),
   (chars! "too many fields", 3, chars! "size"),
   (chars! "too many methods", 3, chars! "size"),
   (chars! "too many parameters", 3, chars! "size"),
   (chars! "unused local variable", 3, chars! "unused"),
   (chars! "unused method parameter", 3, chars! "unused")]

/-- The rules that are not known by the name of their source file, with their identifiers. -/
def otherIdentifiers : List (Str × Str) :=
  [(chars! "broken nil check", chars! "BrokenNilCheck"),
   (chars! "misplaced nil check", chars! "MisplacedNilCheck"),
   (chars! "missing hash method", chars! "MissingHashMethod"),
   (chars! "missing call to base method", chars! "MissingCallToBaseMethod"),
   (chars! "calling prohibited method", chars! "CallingProhibitedMethod"),
   (chars! "calling protected method", chars! "CallingProtectedMethod"),
   (chars! "missing abstract method implementation", chars! "MissingAbstractMethodImplementation"),
   (chars! "base class destructor should be virtual or protected",
     chars! "ProblematicBaseClassDestructor"),
   (chars! "unnecessary default statement in covered switch statement",
     chars! "UnnecessaryDefaultStatement"),
   (chars! "ill-placed default label in switch statement", chars! "MisplacedDefaultLabel"),
   (chars! "ivar assignment outside accessors or init", chars! "AssignIvarOutsideAccessors"),
   (chars! "missing default in switch statements", chars! "MissingDefaultStatement"),
   (chars! "branch divergence", chars! "BranchDivergence"),
   (chars! "use boxed expression", chars! "UseBoxedExpression"),
   (chars! "use container literal", chars! "UseContainerLiteral"),
   (chars! "use number literal", chars! "UseNumberLiteral"),
   (chars! "use object subscripting", chars! "UseObjectSubscripting"),
   (chars! "unnecessary null check for dealloc", chars! "UnnecessaryNullCheckForDealloc"),
   (chars! "high cyclomatic complexity", chars! "HighCyclomaticComplexity"),
   (chars! "high npath complexity", chars! "HighNPathComplexity"),
   (chars! "high ncss method", chars! "HighNcssMethod"),
   (chars! "deep nested block", chars! "DeepNestedBlock")]

/-- The rules that are not suppressed by their name, with the name in annotations. -/
def otherAttributes : List (Str × Str) :=
  [(chars! "missing call to base method", chars! "base method"),
   (chars! "calling prohibited method", chars! "prohibited method"),
   (chars! "calling protected method", chars! "protected method"),
   (chars! "missing abstract method implementation", chars! "abstract method")]

end Oclint.Spec
