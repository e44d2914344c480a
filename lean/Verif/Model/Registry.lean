import Verif.Model.Basic

/-!
# Rule registry, rule configuration, rule identifiers

Models `oclint-core/lib/RuleSet.cpp`, `RuleConfiguration.cpp` and `RuleBase.cpp`.
-/

namespace Oclint

/-! ## RuleSet -/

/-- `RuleSet.cpp:9`: the lazily created vector `_rules`; `none` is the null pointer. -/
abbrev Registry := Option (List RuleId)

/-- `RuleSet.cpp:11-18`: the registering constructor. -/
def Registry.addRule (reg : Registry) (r : RuleId) : Registry :=
  match reg with
  | none => some ([] ++ [r])
  | some rules => some (rules ++ [r])

/-- `RuleSet.cpp:20-23`, `numberOfRules`. -/
def Registry.numberOfRules (reg : Registry) : Nat :=
  match reg with
  | none => 0
  | some rules => rules.length

/-- `RuleSet.cpp:25-32`, `getRuleAtIndex`.  The result `ok none` is the null pointer.  A negative
index passes the test and reaches `_rules->at(index)` converted to a huge `size_t`: a null
dereference if nothing was ever registered, `std::out_of_range` otherwise. -/
def Registry.getRuleAtIndex (reg : Registry) (index : Int) : Outcome (Option RuleId) :=
  if index ≥ (reg.numberOfRules : Int) then .ok none
  else
    match reg with
    | none => .ub
    | some rules =>
      if index < 0 then .throws "vector".toList
      else
        match rules[index.toNat]? with
        | some r => .ok (some r)
        | none => .throws "vector".toList

/-! ## RuleConfiguration -/

/-- `RuleConfiguration.cpp:8`: the lazily created map; `none` is the null pointer. -/
abbrev Configurations := Option (List (Str × Str))

/-- `std::map<std::string,std::string>::find`. -/
def assocFind (m : List (Str × Str)) (key : Str) : Option Str :=
  match m with
  | [] => none
  | (k, v) :: rest => if k = key then some v else assocFind rest key

/-- `std::map<std::string,std::string>::operator[](key) = value`. -/
def assocSet (m : List (Str × Str)) (key value : Str) : List (Str × Str) :=
  match m with
  | [] => [(key, value)]
  | (k, v) :: rest => if k = key then (k, value) :: rest else (k, v) :: assocSet rest key value

namespace Configurations

/-- `RuleConfiguration.cpp:10-18`, `addConfiguration`. -/
def addConfiguration (c : Configurations) (key value : Str) : Configurations :=
  match c with
  | none => some (assocSet [] key value)
  | some m => some (assocSet m key value)

/-- `RuleConfiguration.cpp:20-24`, `hasKey`. -/
def hasKey (c : Configurations) (key : Str) : Bool :=
  match c with
  | none => false
  | some m => (assocFind m key).isSome

/-- `RuleConfiguration.cpp:26-29`, `valueForKey`: `operator[]` inserts an empty string for a missing
key, and dereferences null when nothing was ever configured. -/
def valueForKey (c : Configurations) (key : Str) : Outcome (Str × Configurations) :=
  match c with
  | none => .ub
  | some m =>
    match assocFind m key with
    | some v => .ok (v, some m)
    | none => .ok ([], some (assocSet m key []))

/-- `RuleConfiguration.cpp:31-37`, `removeAll`. -/
def removeAll (_c : Configurations) : Configurations := none

/-- `RuleConfiguration.cpp:39-42`, `stringForKey`. -/
def stringForKey (c : Configurations) (key default : Str) : Outcome (Str × Configurations) :=
  if c.hasKey key then c.valueForKey key else .ok (default, c)

end Configurations

/-- `isspace` in the C locale. -/
def isCSpace (c : Char) : Bool :=
  c = ' ' || c = '\t' || c = '\n' || c = '\x0b' || c = '\x0c' || c = '\r'

/-- Skipping of leading blanks in `atoi`. -/
def skipBlanks : Str → Str
  | [] => []
  | c :: cs => if isCSpace c then skipBlanks cs else c :: cs

/-- Value of a digit character. -/
def digitVal (c : Char) : Nat := c.toNat - '0'.toNat

/-- Digit loop of `atoi`. -/
def atoiDigits : Nat → Str → Nat
  | acc, [] => acc
  | acc, c :: cs => if c.isDigit then atoiDigits (acc * 10 + digitVal c) cs else acc

/-- C library `atoi`: blanks, optional sign, digits; the value not being representable in a 32-bit
`int` is undefined behaviour. -/
def atoi (s : Str) : Outcome Int :=
  match skipBlanks s with
  | '-' :: ds => checkInt32 (-(atoiDigits 0 ds : Int))
  | '+' :: ds => checkInt32 (atoiDigits 0 ds : Int)
  | ds => checkInt32 (atoiDigits 0 ds : Int)

namespace Configurations

/-- `RuleConfiguration.cpp:44-47`, `intForKey`. -/
def intForKey (c : Configurations) (key : Str) (default : Int) : Outcome (Int × Configurations) :=
  if c.hasKey key then do
    let (v, c') ← c.valueForKey key
    let n ← atoi v
    pure (n, c')
  else .ok (default, c)

/-- `RuleConfiguration.cpp:49-52`, `doubleForKey`; `atof` is a parameter because floating point is
not modelled. -/
def doubleForKey {α : Type} (atof : Str → α) (c : Configurations) (key : Str) (default : α) :
    Outcome (α × Configurations) :=
  if c.hasKey key then do
    let (v, c') ← c.valueForKey key
    pure (atof v, c')
  else .ok (default, c)

end Configurations

/-! ## RuleBase::identifier -/

/-- Loop of `RuleBase.cpp:25-31`; `prev` is the (already processed) preceding character.
`isalpha`, `islower`, `toupper` are the C-locale functions on 7-bit characters. -/
def identifierLoop : Char → Str → Str
  | _, [] => []
  | prev, c :: cs =>
    let c' := if !prev.isAlpha && c.isLower then c.toUpper else c
    c' :: identifierLoop c' cs

/-- `RuleBase.cpp:16-35`, `RuleBase::identifier` of a rule called `name`. -/
def identifier (name : Str) : Str :=
  match name with
  | [] => []
  | c :: cs => (c.toUpper :: identifierLoop c.toUpper cs).filter Char.isAlpha

end Oclint
