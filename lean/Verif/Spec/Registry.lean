import Verif.Model.RulesetFilter

/-!
# Specifications for registry, configuration, identifiers and rule selection
-/

namespace Oclint.Spec
open Oclint

/-- The registry after registering rules in a given order, starting from the null vector. -/
def registryAfter (rules : List RuleId) : Registry := rules.foldl Registry.addRule none

/-! ## Configuration as a last-write-wins map -/

/-- Configuration operations of the public API. -/
inductive CfgOp where
  | set (key value : Str)
  | clear
  | getRaw (key : Str)
  | getString (key default : Str)
  | getInt (key : Str) (default : Int)
  deriving Repr, DecidableEq

/-- What a key is configured to after the operations: the value of the last `set` of that key with
no `clear` after it; a raw read configures the empty text if there is no such value.  The list is
given latest operation first. -/
def configuredRev (key : Str) : List CfgOp → Option Str
  | [] => none
  | .set k v :: earlier => if k = key then some v else configuredRev key earlier
  | .clear :: _ => none
  | .getRaw k :: earlier =>
    if k = key then some ((configuredRev key earlier).getD []) else configuredRev key earlier
  | .getString _ _ :: earlier => configuredRev key earlier
  | .getInt _ _ :: earlier => configuredRev key earlier

/-- See `configuredRev`. -/
def configured (key : Str) (ops : List CfgOp) : Option Str := configuredRev key ops.reverse

/-- Performing an operation through the API. -/
def applyCfg (c : Configurations) : CfgOp → Outcome Configurations
  | .set k v => .ok (c.addConfiguration k v)
  | .clear => .ok c.removeAll
  | .getRaw k => do let r ← c.valueForKey k; pure r.2
  | .getString k d => do let r ← c.stringForKey k d; pure r.2
  | .getInt k d => do let r ← c.intForKey k d; pure r.2

/-! ## Decimal text -/

/-- The digit character of a number below ten. -/
def digitChar (n : Nat) : Char := Char.ofNat (48 + n)

/-- Decimal text of a natural number, most significant digit first. -/
def decimal (n : Nat) : Str :=
  if n < 10 then [digitChar n] else decimal (n / 10) ++ [digitChar (n % 10)]

/-- Decimal text of an integer. -/
def decimalInt (z : Int) : Str :=
  if z < 0 then '-' :: decimal z.natAbs else decimal z.natAbs

/-- Representable in a 32-bit `int`. -/
def IsInt32 (z : Int) : Prop := -2147483648 ≤ z ∧ z ≤ 2147483647

instance (z : Int) : Decidable (IsInt32 z) := inferInstanceAs (Decidable (_ ∧ _))

/-- The number that a text of digits stands for: each digit counts as many times as its place says. -/
def placeValue : Str → Nat
  | [] => 0
  | c :: cs => (c.toNat - 48) * 10 ^ cs.length + placeValue cs

/-- The number that a text begins with: blanks, perhaps a sign, and as many digits as there are; no
digits stand for zero. -/
def BeginsWithNumber (text : Str) (z : Int) : Prop :=
  ∃ blanks sign digits rest : Str, text = blanks ++ sign ++ digits ++ rest ∧
    (∀ c ∈ blanks, c ∈ [' ', '\t', '\n', '\x0b', '\x0c', '\r']) ∧
    (∀ c ∈ digits, '0' ≤ c ∧ c ≤ '9') ∧
    (∀ c, rest.head? = some c → ¬ ('0' ≤ c ∧ c ≤ '9')) ∧
    (sign = [] ∧ (digits = [] → ∀ c, rest.head? = some c →
          c ∉ [' ', '\t', '\n', '\x0b', '\x0c', '\r', '+', '-']) ∧ z = placeValue digits ∨
      sign = ['+'] ∧ z = placeValue digits ∨ sign = ['-'] ∧ z = -placeValue digits)

/-! ## Identifiers -/

/-- Upper-case the first letter of a word. -/
def capitalize : Str → Str
  | [] => []
  | c :: cs => c.toUpper :: cs

/-- Split a name at every non-letter, capitalise the pieces and glue them together. -/
def camelCase (name : Str) : Str :=
  ((name.splitOnP fun c => !c.isAlpha).map capitalize).flatten

/-! ## Rule selection -/

/-- A request to enable or disable rules by identifier. -/
structure Request where
  enable : Bool
  name : Str
  deriving Repr, DecidableEq

/-- The last request naming a rule. -/
def lastRequest (reqs : List Request) (name : Str) : Option Bool :=
  (reqs.reverse.find? fun r => decide (r.name = name)).map Request.enable

/-- A rule runs unless its last request disables it; and if some rule is (last) explicitly
enabled, only such rules run. -/
def Selected (reqs : List Request) (name : Str) : Prop :=
  lastRequest reqs name ≠ some false ∧
    ((∃ n, lastRequest reqs n = some true) → lastRequest reqs name = some true)

/-- Performing requests through the API. -/
def applyRequest (f : RulesetFilter) (r : Request) : RulesetFilter :=
  if r.enable then f.enableRule r.name else f.disableRule r.name

/-- The filter after some requests. -/
def filterAfter (reqs : List Request) : RulesetFilter := reqs.foldl applyRequest RulesetFilter.empty

end Oclint.Spec
