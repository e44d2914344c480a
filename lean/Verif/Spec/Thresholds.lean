import Verif.Model.Thresholds
import Verif.Spec.Registry

/-!
# What a metric rule is supposed to report
-/

namespace Oclint.Spec
open Oclint

/-- Configuration key of a rule's limit. -/
def limitKey : MetricRule → String
  | .cyclomatic => "CYCLOMATIC_COMPLEXITY"
  | .npath => "NPATH_COMPLEXITY"
  | .ncss => "NCSS_METHOD"
  | .depth => "NESTED_BLOCK_DEPTH"
  | .longMethod => "LONG_METHOD"
  | .longClass => "LONG_CLASS"
  | .fields => "TOO_MANY_FIELDS"
  | .methods => "TOO_MANY_METHODS"
  | .parameters => "TOO_MANY_PARAMETERS"
  | .longName => "LONG_VARIABLE_NAME"

/-- The limit when nothing is configured. -/
def limitDefault : MetricRule → Int
  | .cyclomatic => 10
  | .npath => 200
  | .ncss => 30
  | .depth => 5
  | .longMethod => 50
  | .longClass => 1000
  | .fields => 20
  | .methods => 30
  | .parameters => 10
  | .longName => 20

/-- The limit of a rule is `t`: its key is configured to a text standing for `t`, or not configured
and `t` is the default (C07 and C08 describe `intForKey`). -/
def LimitIs (cfg : Configurations) (r : MetricRule) (t : Int) : Prop :=
  ∃ cfg', cfg.intForKey (limitKey r).toList (limitDefault r) = .ok (t, cfg')

/-- The constructs a rule is about. -/
inductive Applies : MetricRule → Construct → Prop where
  | cyclomatic (d) : Applies .cyclomatic (.method d)
  | npath (d : MethodDecl) (b) : d.body = some (.compound b) → Applies .npath (.method d)
  | ncss (d) : Applies .ncss (.method d)
  | depth (b) : Applies .depth (.block b)
  /-- functions with a body, except C++ methods defined inside their class -/
  | longMethod (d : MethodDecl) : d.body ≠ none → ¬ (d.cxxMethod ∧ d.inRecord) →
      Applies .longMethod (.method d)
  | longClass (d) : Applies .longClass (.cls d)
  | fields (d : ClassDecl) : d.kind = .objcInterface ∨ d.kind = .cxxRecord →
      Applies .fields (.cls d)
  | methods (d : ClassDecl) : d.kind = .objcImpl ∨ d.kind = .cxxRecord →
      Applies .methods (.cls d)
  | parameters (d : MethodDecl) : d.body ≠ none → Applies .parameters (.method d)
  | longName (n) : Applies .longName (.variable n)

/-- `Measure r c m`: the metric of rule `r` is `m` for the construct `c`.  Lengths and counts are
the true ones and have to be below 2^31 (ten less for names); the values of the code metrics are described by C33 to
C37. -/
inductive Measure : MetricRule → Construct → Int → Prop where
  | cyclomatic {d : MethodDecl} {m} : cyclomaticComplexity d.parts = .ok m →
      Measure .cyclomatic (.method d) m
  | npath {d : MethodDecl} {b m} : d.body = some (.compound b) →
      npathComplexity (.compound b) = .ok m → Measure .npath (.method d) m
  | ncss {d : MethodDecl} {m} : ncssCount d.body = .ok m → Measure .ncss (.method d) m
  | depth {b m} : stmtDepth (.compound b) = .ok m → Measure .depth (.block b) m
  | longMethod {d : MethodDecl} {n : Nat} : n < 2147483648 → d.endLine + 1 = d.startLine + n →
      Measure .longMethod (.method d) n
  | longClass {d : ClassDecl} {n : Nat} : n < 2147483648 → d.endLine + 1 = d.startLine + n →
      Measure .longClass (.cls d) n
  | fields {d : ClassDecl} : d.fields < 2147483648 → Measure .fields (.cls d) d.fields
  | methods {d : ClassDecl} : d.methods < 2147483648 → Measure .methods (.cls d) d.methods
  | parameters {d : MethodDecl} : d.params < 2147483648 →
      Measure .parameters (.method d) d.params
  | longName {n : Str} : n.length ≤ 2147483637 → Measure .longName (.variable n) n.length

/-- How a class-like declaration is called. -/
def kindName : ClassKind → Str
  | .objcInterface => "Objective-C interface".toList
  | .objcCategory => "Objective-C category".toList
  | .objcProtocol => "Objective-C protocol".toList
  | .objcImpl => "Objective-C implementation".toList
  | .cxxRecord => "C++ class".toList

/-- A name as shown in a message: if it exceeds the limit by more than ten characters, only its
first `limit + 3` and last three characters with dots in between. -/
def shownName (name : Str) (limit : Int) : Str :=
  if (name.length : Int) > limit + 10
  then name.take (limit + 3).toNat ++ "...".toList ++ name.drop (name.length - 3)
  else name

/-- The description: it names the metric's value and the limit. -/
def message (rule : MetricRule) (c : Construct) (value limit : Int) : Str :=
  let counted (what unit : Str) : Str :=
    what ++ decimalInt value ++ unit ++ " exceeds limit of ".toList ++ decimalInt limit
  match rule, c with
  | .cyclomatic, _ => counted "Cyclomatic Complexity Number ".toList []
  | .npath, _ => counted "NPath Complexity Number ".toList []
  | .ncss, _ => counted "Method of ".toList " non-commenting source statements".toList
  | .depth, _ => counted "Block depth of ".toList []
  | .longMethod, _ => counted "Method with ".toList " lines".toList
  | .longClass, .cls d => counted (kindName d.kind ++ " with ".toList) " lines".toList
  | .fields, .cls d => counted (kindName d.kind ++ " with ".toList) " fields".toList
  | .methods, .cls d => counted (kindName d.kind ++ " with ".toList) " methods".toList
  | .parameters, _ => counted "Method with ".toList " parameters".toList
  | .longName, .variable n => "Length of variable name `".toList ++ shownName n limit
      ++ "` is ".toList ++ decimalInt value ++ ", which is longer than the threshold of ".toList
      ++ decimalInt limit
  | _, _ => []

/-- `Reports rule limit cs rs`: `rs` are the reports the rule is supposed to make for the constructs
`cs` of a translation unit, in order: one for each construct it is about whose metric is above the
limit, and none for the others. -/
inductive Reports (rule : MetricRule) (limit : Int) :
    List Construct → List (Construct × Str) → Prop where
  | nil : Reports rule limit [] []
  | above {c m cs rs} : Applies rule c → Measure rule c m → limit < m → Reports rule limit cs rs →
      Reports rule limit (c :: cs) ((c, message rule c m limit) :: rs)
  | notAbove {c m cs rs} : Applies rule c → Measure rule c m → m ≤ limit →
      Reports rule limit cs rs → Reports rule limit (c :: cs) rs
  | other {c cs rs} : ¬ Applies rule c → Reports rule limit cs rs →
      Reports rule limit (c :: cs) rs

end Oclint.Spec
