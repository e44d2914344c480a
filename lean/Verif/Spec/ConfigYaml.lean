import Verif.Model.ConfigYaml

/-!
# What the keys of a configuration file mean
-/

namespace Oclint.Spec
open Oclint

/-- What is expected under a key. -/
inductive EntryKind where
  | texts | pairs | text | number | switch
  deriving DecidableEq

/-- The keys, in the order they are read. -/
def configKeys : List (Str × EntryKind) :=
  [("rules".toList, .texts), ("disable-rules".toList, .texts), ("rule-paths".toList, .texts),
   ("rule-configurations".toList, .pairs), ("output".toList, .text), ("report-type".toList, .text),
   ("max-priority-1".toList, .number), ("max-priority-2".toList, .number),
   ("max-priority-3".toList, .number), ("enable-clang-static-analyzer".toList, .switch),
   ("allow-duplicated-violations".toList, .switch), ("enable-global-analysis".toList, .switch)]

/-- The node is the mapping's value for the key. -/
inductive EntryOf : Yaml → Str → Yaml → Prop where
  | mk {pre post key v} : (∀ e ∈ pre, e.1 ≠ key) → EntryOf (.map (pre ++ (key, v) :: post)) key v

/-- The text under a key, empty if there is no such key. -/
def TextUnder (entries : List (Str × Yaml)) (key s : Str) : Prop :=
  EntryOf (.map entries) key (.scalar s) ∨ (¬ ∃ v, EntryOf (.map entries) key v) ∧ s = []

/-- There is a value for the key and it is no text. -/
def NoText (entries : List (Str × Yaml)) (key : Str) : Prop :=
  ∃ v, EntryOf (.map entries) key v ∧ ∀ s, v ≠ .scalar s

/-- There is nothing but the two keys of a pair. -/
def OnlyPairKeys (entries : List (Str × Yaml)) : Prop :=
  ∀ e ∈ entries, e.1 = "key".toList ∨ e.1 = "value".toList

/-- A pair with optional key and value, both texts, and nothing else. -/
inductive PairOf : Yaml → Str × Str → Prop where
  | empty : PairOf .empty ([], [])
  | mk {entries k v} : OnlyPairKeys entries → TextUnder entries "key".toList k →
      TextUnder entries "value".toList v → PairOf (.map entries) (k, v)

/-- What stays of a node that is not a pair. -/
inductive PairLeft : Yaml → Str × Str → Prop where
  | scalar {s} : PairLeft (.scalar s) ([], [])
  | seq {l} : PairLeft (.seq l) ([], [])
  | key {entries} : NoText entries "key".toList → PairLeft (.map entries) ([], [])
  | value {entries k} : TextUnder entries "key".toList k → NoText entries "value".toList →
      PairLeft (.map entries) (k, [])
  | more {entries k v} : TextUnder entries "key".toList k → TextUnder entries "value".toList v →
      ¬ OnlyPairKeys entries → PairLeft (.map entries) (k, v)

/-- A text that stands for nothing. -/
def NullText (s : Str) : Prop :=
  s = "null".toList ∨ s = "Null".toList ∨ s = "NULL".toList ∨ s = "~".toList

/-- A list whose items are as `is` says. -/
inductive ListOf {α : Type} (is : Yaml → α → Prop) : Yaml → List α → Prop where
  | empty : ListOf is .empty []
  | null {s} : NullText s → ListOf is (.scalar s) []
  | nil : ListOf is (.seq []) []
  | cons {v x vs xs} : is v x → ListOf is (.seq vs) xs → ListOf is (.seq (v :: vs)) (x :: xs)

/-- What stays of something that is not a list as `is` says: the items before the first wrong one,
and what `left` says stays of that one. -/
inductive ListLeft {α : Type} (is left : Yaml → α → Prop) : Yaml → List α → Prop where
  | scalar {s} : ¬ NullText s → ListLeft is left (.scalar s) []
  | map {l} : ListLeft is left (.map l) []
  | here {v x vs} : left v x → ListLeft is left (.seq (v :: vs)) [x]
  | there {v x vs xs} : is v x → ListLeft is left (.seq vs) xs →
      ListLeft is left (.seq (v :: vs)) (x :: xs)

/-- A text. -/
def PlainText (v : Yaml) (s : Str) : Prop := v = .scalar s

/-- Nothing stays. -/
def Unset {α : Type} (is : Yaml → α → Prop) (unset : α) (v : Yaml) (x : α) : Prop :=
  (¬ ∃ y, is v y) ∧ x = unset

/-- A list of texts, and what stays of something else. -/
def TextsOf : Yaml → List Str → Prop := ListOf PlainText
def TextsLeft : Yaml → List Str → Prop := ListLeft PlainText (Unset PlainText [])

/-- A list of pairs, and what stays of something else. -/
def PairsOf : Yaml → List (Str × Str) → Prop := ListOf PairOf
def PairsLeft : Yaml → List (Str × Str) → Prop := ListLeft PairOf PairLeft

/-- A number that fits. -/
def NumberOf (parse : Str → Option Int) (v : Yaml) (n : Int) : Prop :=
  ∃ s, v = .scalar s ∧ parse s = some n ∧ -2147483648 ≤ n ∧ n ≤ 2147483647

/-- A switch. -/
inductive SwitchOf : Yaml → TriState → Prop where
  | on : SwitchOf (.scalar "true".toList) .TRUE
  | off : SwitchOf (.scalar "false".toList) .FALSE

/-- The node is of the kind. -/
def OfKind (parse : Str → Option Int) : EntryKind → Yaml → Prop
  | .texts, v => ∃ l, TextsOf v l
  | .pairs, v => ∃ l, PairsOf v l
  | .text, v => ∃ s, PlainText v s
  | .number, v => ∃ n, NumberOf parse v n
  | .switch, v => ∃ t, SwitchOf v t

/-- All entries that are read before this key are of their kinds. -/
def Reached (parse : Str → Option Int) (doc : Yaml) (key : Str) : Prop :=
  ∀ k ∈ configKeys.takeWhile (fun e => e.1 ≠ key), ∀ v, EntryOf doc k.1 v → OfKind parse k.2 v

/-- A member has the value of its entry, or what stays of it if it is not of its kind; it is not set if
there is no entry or it is not reached. -/
def Given {α : Type} (parse : Str → Option Int) (doc : Yaml) (key : Str) (is left : Yaml → α → Prop)
    (unset : α) (x : α) : Prop :=
  (∃ v, EntryOf doc key v ∧ Reached parse doc key ∧ (is v x ∨ left v x)) ∨
    ((¬ ∃ v, EntryOf doc key v) ∨ ¬ Reached parse doc key) ∧ x = unset

/-- The members as a document gives them. -/
structure ReadsAs (parse : Str → Option Int) (doc : Yaml) (c : ConfigFile) : Prop where
  rules : Given parse doc "rules".toList TextsOf TextsLeft [] c.rules
  disableRules : Given parse doc "disable-rules".toList TextsOf TextsLeft [] c.disableRules
  rulePaths : Given parse doc "rule-paths".toList TextsOf TextsLeft [] c.rulePaths
  ruleConfigurations :
    Given parse doc "rule-configurations".toList PairsOf PairsLeft [] c.ruleConfigurations
  output : Given parse doc "output".toList PlainText (Unset PlainText []) [] c.output
  reportType : Given parse doc "report-type".toList PlainText (Unset PlainText []) [] c.reportType
  maxP1 : Given parse doc "max-priority-1".toList (NumberOf parse)
    (Unset (NumberOf parse) (-2147483648)) (-2147483648) c.maxP1
  maxP2 : Given parse doc "max-priority-2".toList (NumberOf parse)
    (Unset (NumberOf parse) (-2147483648)) (-2147483648) c.maxP2
  maxP3 : Given parse doc "max-priority-3".toList (NumberOf parse)
    (Unset (NumberOf parse) (-2147483648)) (-2147483648) c.maxP3
  clangChecker : Given parse doc "enable-clang-static-analyzer".toList SwitchOf
    (Unset SwitchOf .UNDEFINED) .UNDEFINED c.clangChecker
  allowDuplicatedViolations : Given parse doc "allow-duplicated-violations".toList SwitchOf
    (Unset SwitchOf .UNDEFINED) .UNDEFINED c.allowDuplicatedViolations
  enableGlobalAnalysis : Given parse doc "enable-global-analysis".toList SwitchOf
    (Unset SwitchOf .UNDEFINED) .UNDEFINED c.enableGlobalAnalysis

end Oclint.Spec
