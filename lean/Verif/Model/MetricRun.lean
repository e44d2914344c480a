import Verif.Model.Catalogue
import Verif.Model.Thresholds
import Verif.Model.TreeRun

/-!
# The rules with limits as parts of a run

Connects the rules of `Model/Thresholds.lean` with what `Model/Catalogue.lean` says of their classes and
with the runs of `Model/TreeRun.lean`.  The constructs `TraverseDecl` comes by in a top level
declaration are a parameter, since the traversal is Clang's.
-/

namespace Oclint

/-- The source files of the rules, below `oclint-rules/rules`. -/
def metricSource : MetricRule → Str
  | .cyclomatic => chars! "CyclomaticComplexityRule.cpp"
  | .npath => chars! "NPathComplexityRule.cpp"
  | .ncss => chars! "NcssMethodCountRule.cpp"
  | .depth => chars! "NestedBlockDepthRule.cpp"
  | .longMethod => chars! "LongMethodRule.cpp"
  | .longClass => chars! "LongClassRule.cpp"
  | .fields => chars! "TooManyFieldsRule.cpp"
  | .methods => chars! "TooManyMethodsRule.cpp"
  | .parameters => chars! "TooManyParametersRule.cpp"
  | .longName => chars! "LongVariableNameRule.cpp"

/-- The number of the rule in the catalogue. -/
def metricId (r : MetricRule) : RuleId :=
  shippedRules.findIdx fun s => s.source == metricSource r

/-- What the class of the rule says about itself. -/
def metricClass (r : MetricRule) : ShippedRule :=
  (shippedRule? (metricId r)).getD
    { directory := [], source := [], kind := .visitor, name := [], priority := 0, category := [] }

/-- A construct that the traversal comes by, with its node. -/
structure Sight where
  node : Nat
  construct : Construct

/-- The `Visit...` functions of a rule for the constructs of a declaration; each reports on the node
it is called for (`CyclomaticComplexityRule.cpp:30`, `NPathComplexityRule.cpp:34`,
`NcssMethodCountRule.cpp:22`, `NestedBlockDepthRule.cpp:77`, `LongMethodRule.cpp:26`,
`LongClassRule.cpp:23`, `TooManyFieldsRule.cpp:84,96`, `TooManyMethodsRule.cpp:92,104`,
`TooManyParametersRule.cpp:23`, `LongVariableNameRule.cpp:76`). -/
def visitSights (cfg : Configurations) (stored : Int) (r : MetricRule) :
    List Sight → Outcome (List Finding)
  | [] => pure []
  | s :: rest => do
    let o ← metricVisit cfg stored r s.construct
    let fs ← visitSights cfg stored r rest
    pure (o.toList.map (fun text => ⟨some s.node, text⟩) ++ fs)

/-- A rule with a limit, as the base class sees it.  `sights` are the constructs of a top level
declaration in the order of the traversal.  The member is the threshold of those that read it in
`setUp`; see `metricSetUp`. -/
def metricVisitor (cfg : Configurations) (sights : TreeUnit → Nat → List Sight) (r : MetricRule) :
    VisitorRule Int :=
  { attributeName := (metricClass r).attributeName
    languages := (metricClass r).supportedLanguages
    cudaAttrs := (metricClass r).cudaAttrs
    setUp := fun _ _ => metricSetUp cfg r
    traverse := fun u t d => do
      let fs ← visitSights cfg t r (sights u d)
      pure (t, fs)
    tearDown := fun _ t => pure (t, []) }

end Oclint
