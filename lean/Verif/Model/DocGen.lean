import Verif.Model.Console

/-!
# The documentation generator

Models `oclint-driver/main_docgen.cpp`.  `std::sort` is a parameter, because it may put elements that
compare equal in any order; so are the clock and whether a file can be opened.  Simplification: a null
pointer in the list of rules is taken to be used at once, not only when the category is asked for.
-/

namespace Oclint

/-- `oclint-core/include/oclint/RuleBase.h:26-39`: what a rule says about itself, some of it made up by
`RuleBase`. -/
structure RuleDoc where
  name : Str
  identifier : Str
  category : Str
  attributeName : Str
  since : Str
  description : Str
  ruleExample : Str
  fileName : Str
  enableSuppress : Bool
  /-- in the order of the map -/
  thresholds : List (Str × Str)
  additionalDocument : Str

/-- `std::sort` on texts, and on rules by the given texts. -/
structure DocSort where
  names : List Str → List Str
  rules : (RuleId → Str) → List RuleId → List RuleId

/-- `std::map<std::string, std::vector<RuleBase *>>::operator[]`, reading. -/
def docFind (m : List (Str × List RuleId)) (key : Str) : List RuleId :=
  match m with
  | [] => []
  | (k, v) :: rest => if k = key then v else docFind rest key

/-- `operator[]`, assigning. -/
def docSet (m : List (Str × List RuleId)) (key : Str) (value : List RuleId) :
    List (Str × List RuleId) :=
  match m with
  | [] => [(key, value)]
  | (k, v) :: rest => if k = key then (k, value) :: rest else (k, v) :: docSet rest key value

/-- `main_docgen.cpp:31-43`, `allRules`. -/
def allRules (reg : Registry) : Outcome (List RuleId) :=
  (List.range reg.numberOfRules).foldlM
    (fun acc (idx : Nat) => do
      match ← reg.getRuleAtIndex idx with
      | none => .ub
      | some r => pure (acc ++ [r]))
    []

/-- `main_docgen.cpp:85-95`, `writeIndexHeader`. -/
def writeIndexHeader (out : Str) (numberOfRules : Nat) : Str :=
  out ++ "Rule Index".toList ++ ['\n'] ++ "==========".toList ++ ['\n'] ++ ['\n']
    ++ "OCLint |release| includes ".toList ++ toStringInt numberOfRules ++ " rules.".toList ++ ['\n']
    ++ ['\n'] ++ ".. toctree::".toList ++ ['\n'] ++ "   :maxdepth: 2".toList ++ ['\n'] ++ ['\n']

/-- `main_docgen.cpp:97-100`, `writeCategoryToIndex`. -/
def writeCategoryToIndex (out category : Str) : Str := out ++ "   ".toList ++ category ++ ['\n']

/-- `category[0] = toupper(category[0])`; of an empty text this is the terminating null. -/
def upperFirst (s : Str) : Str :=
  match s with
  | [] => []
  | c :: cs => c.toUpper :: cs

/-- The loops `main_docgen.cpp:106-109` and `120-123`. -/
def writeUnderline (out : Str) (mark : Char) : Nat → Str
  | 0 => out
  | n + 1 => writeUnderline (out ++ [mark]) mark n

/-- `main_docgen.cpp:102-111`, `writeCategoryHeader`. -/
def writeCategoryHeader (out category : Str) : Str :=
  let category := upperFirst category
  let out := out ++ category ++ ['\n']
  let out := writeUnderline out '=' category.length
  out ++ ['\n'] ++ ['\n']

/-- `main_docgen.cpp:141-151`: thresholds. -/
def writeThresholds (out : Str) (thresholds : List (Str × Str)) : Str :=
  if thresholds.length > 0 then
    let out := out ++ "**Thresholds:**".toList ++ ['\n'] ++ ['\n']
    let out := thresholds.foldl
      (fun out entry => out ++ entry.1 ++ ['\n'] ++ "    ".toList ++ entry.2 ++ ['\n']) out
    out ++ ['\n']
  else out

/-- `main_docgen.cpp:153-159`: suppression. -/
def writeSuppress (out : Str) (enabled : Bool) (attributeName : Str) : Str :=
  if enabled then
    out ++ "**Suppress:**".toList ++ ['\n'] ++ ['\n'] ++ ".. code-block:: cpp".toList ++ ['\n'] ++ ['\n']
      ++ "    __attribute__((annotate(\"oclint:suppress[".toList ++ attributeName
      ++ "]\")))".toList ++ ['\n'] ++ ['\n']
  else out

/-- `main_docgen.cpp:113-166`, `writeRuleToCategory`. -/
def writeRuleToCategory (out : Str) (doc : RuleDoc) : Str :=
  let ruleIdentifier := doc.identifier
  let out := out ++ ruleIdentifier ++ ['\n']
  let out := writeUnderline out '-' ruleIdentifier.length
  let out := out ++ ['\n'] ++ ['\n']
  let out := out ++ "**Since: ".toList ++ doc.since ++ "**".toList ++ ['\n'] ++ ['\n']
  let out := out ++ "**Name: ".toList ++ doc.name ++ "**".toList ++ ['\n'] ++ ['\n']
  let out := out ++ doc.description ++ ['\n'] ++ ['\n']
  let out := out ++ "This rule is defined by the following class: ".toList
    ++ "`oclint-rules/rules/".toList ++ doc.category ++ "/".toList ++ doc.fileName ++ " ".toList
    ++ "<https://github.com/oclint/oclint/blob/master/".toList
    ++ "oclint-rules/rules/".toList ++ doc.category ++ "/".toList ++ doc.fileName ++ ">`_".toList
    ++ ['\n'] ++ ['\n']
  let out := out ++ "**Example:**".toList ++ ['\n'] ++ ['\n']
  let out := out ++ doc.ruleExample ++ ['\n'] ++ ['\n']
  let out := writeThresholds out doc.thresholds
  let out := writeSuppress out doc.enableSuppress doc.attributeName
  if doc.additionalDocument.length > 0 then out ++ doc.additionalDocument ++ ['\n'] else out

/-- `main_docgen.cpp:168-175`, `writeFooter`; `asctime` ends with a line break. -/
def writeFooter (out time : Str) : Str :=
  let out := out ++ ['\n']
  let out := out ++ ".. Generated on ".toList ++ time
  out ++ ['\n']

/-- `main_docgen.cpp:190-209`: categories and their rules. -/
def groupRules (categoryOf : RuleId → Str) (rules : List RuleId) :
    List Str × List (Str × List RuleId) :=
  rules.foldl
    (fun (st : List Str × List (Str × List RuleId)) r =>
      let category := categoryOf r
      if category ∈ st.1 then (st.1, docSet st.2 category (docFind st.2 category ++ [r]))
      else (st.1 ++ [category], docSet st.2 category [r]))
    ([], [])

/-- `docRulePath`, `main_docgen.cpp:212`. -/
def docRulePath : Str := "../build/oclint-docs/rules/".toList

/-- `main_docgen.cpp:222-240`: the file of a category. -/
def categoryFile (docs : RuleId → RuleDoc) (sort : DocSort) (clock : Str → Str)
    (mapping : List (Str × List RuleId)) (category : Str) : Str × Str :=
  let path := docRulePath ++ category ++ ".rst".toList
  let out := writeCategoryHeader [] category
  let rules := sort.rules (fun r => (docs r).identifier) (docFind mapping category)
  let out := rules.foldl (fun out r => writeRuleToCategory out (docs r)) out
  (path, writeFooter out (clock path))

/-- `main_docgen.cpp:190-244`: the files, in the order they are opened. -/
def docFiles (docs : RuleId → RuleDoc) (sort : DocSort) (clock : Str → Str)
    (rules : List RuleId) : List (Str × Str) :=
  let grouped := groupRules (fun r => (docs r).category) rules
  let categories := sort.names grouped.1
  let indexPath := docRulePath ++ "index.rst".toList
  let index := writeIndexHeader [] rules.length
  let index := categories.foldl writeCategoryToIndex index
  let index := writeFooter index (clock indexPath)
  (indexPath, index) :: categories.map (categoryFile docs sort clock grouped.2)

variable {U σ κ : Type}

/-- `main_docgen.cpp:56-74`, `prepare`, with the registry; `none` is its error code. -/
def docgenPrepare (m : Machine U σ κ) (v : Voices U) (st : OptionState) (c : Console) :
    Outcome (Console × Option Registry) :=
  let r := loudRulesPath v.dlerror m.listing m.ruleLibrary ⟨[], none⟩ (rulesPath m.env st)
  let c := c.toErr r.said
  match r.result with
  | .ub => .ub
  | .throws w => .ok (printErrorLine c w, none)
  | .ok ld =>
    if ld.registry.numberOfRules ≤ 0 then .ok (printErrorLine c "no rule loaded".toList, none)
    else .ok (c, some ld.registry)

/-- `main_docgen.cpp:177-247`, `main`: what is written, and the exit code.  The parser's error is not
asked for: `expectedParser.get()` has no value then.  A file that does not open swallows what is
written. -/
def docgenMain (m : Machine U σ κ) (v : Voices U) (docs : RuleId → RuleDoc) (sort : DocSort)
    (clock : Str → Str) (cli : Option CommandLine) : Outcome (Console × Nat) :=
  match cli with
  | none => .ub
  | some cli => do
    let st ← processOptions m.env cli
    match docgenPrepare m v st (Console.empty.toErr v.configErrors) with
    | .ub => .ub
    | .throws w => .throws w
    | .ok (c, none) => .ok (c, 1)
    | .ok (c, some registry) => do
      let rules ← allRules registry
      let files := (docFiles docs sort clock rules).filter fun f => m.canOpen f.1
      pure ({ c with files := c.files ++ files }, 0)

end Oclint
