import Verif.Model.DocGen
import Verif.Spec.Console

/-!
# What the documentation generator writes
-/

namespace Oclint.Spec
open Oclint

variable {U σ κ : Type}

/-- What `std::sort` promises: the same elements, none before a smaller one. -/
structure Sorts (sort : DocSort) : Prop where
  names : ∀ l, (sort.names l).Perm l ∧ (sort.names l).Pairwise fun a b => ¬ b < a
  rules : ∀ key l, (sort.rules key l).Perm l ∧ (sort.rules key l).Pairwise fun a b => ¬ key b < key a

/-- Lines, each with its line break. -/
def inLines (lines : List Str) : Str := lines.flatMap (· ++ ['\n'])

/-- A title and its underline. -/
def titled (title : Str) (mark : Char) : List Str := [title, List.replicate title.length mark, []]

/-- The last lines; `time` ends with a line break. -/
def footer (time : Str) : Str := "\n.. Generated on ".toList ++ time ++ "\n".toList

/-- The lines about thresholds. -/
def thresholdLines : List (Str × Str) → List Str
  | [] => []
  | t :: ts => ["**Thresholds:**".toList, []] ++
      (t :: ts).flatMap (fun e => [e.1, "    ".toList ++ e.2]) ++ [[]]

/-- The place of a rule's source. -/
def sourceOf (doc : RuleDoc) : Str :=
  "oclint-rules/rules/".toList ++ doc.category ++ "/".toList ++ doc.fileName

/-- The section of a rule. -/
def section' (doc : RuleDoc) : List Str :=
  titled doc.identifier '-' ++
    ["**Since: ".toList ++ doc.since ++ "**".toList, [],
     "**Name: ".toList ++ doc.name ++ "**".toList, [],
     doc.description, [],
     "This rule is defined by the following class: `".toList ++ sourceOf doc ++
       " <https://github.com/oclint/oclint/blob/master/".toList ++ sourceOf doc ++ ">`_".toList, [],
     "**Example:**".toList, [],
     doc.ruleExample, []] ++
    thresholdLines doc.thresholds ++
    (if doc.enableSuppress then
      ["**Suppress:**".toList, [], ".. code-block:: cpp".toList, [],
       "    __attribute__((annotate(\"oclint:suppress[".toList ++ doc.attributeName ++
         "]\")))".toList, []]
     else []) ++
    (if doc.additionalDocument = [] then [] else [doc.additionalDocument])

/-- Where the files are. -/
def docPath (name : Str) : Str := "../build/oclint-docs/rules/".toList ++ name ++ ".rst".toList

/-- A category with a capital letter. -/
def capital : Str → Str
  | [] => []
  | c :: cs => c.toUpper :: cs

/-- The files: an index that names every category once, in order, and for every category a chapter
with every rule of the category, ordered by identifier. -/
def Guide (docs : RuleId → RuleDoc) (clock : Str → Str)
    (rules : List RuleId) (files : List (Str × Str)) : Prop :=
  ∃ (categories : List Str) (chapter : Str → List RuleId),
    categories.Pairwise (· < ·) ∧
    (∀ c, c ∈ categories ↔ ∃ r ∈ rules, (docs r).category = c) ∧
    (∀ c ∈ categories, (chapter c).Perm (rules.filter fun r => decide ((docs r).category = c)) ∧
      (chapter c).Pairwise fun a b => ¬ (docs b).identifier < (docs a).identifier) ∧
    files =
      (docPath "index".toList,
        inLines (titled "Rule Index".toList '=' ++
          ["OCLint |release| includes ".toList ++ toStringInt rules.length ++ " rules.".toList, [],
           ".. toctree::".toList, "   :maxdepth: 2".toList, []] ++
          categories.map ("   ".toList ++ ·)) ++ footer (clock (docPath "index".toList))) ::
      categories.map fun c =>
        (docPath c, inLines (titled (capital c) '=' ++
          (chapter c).flatMap fun r => section' (docs r)) ++ footer (clock (docPath c)))

/-- All rules of all plugins, each plugin once. -/
def loadedRules (m : Machine U σ κ) (st : OptionState) : List RuleId :=
  ((rulesPath m.env st).flatMap (pluginPaths m.listing)).eraseDups.flatMap
    fun p => (m.ruleLibrary p).getD []

end Oclint.Spec
