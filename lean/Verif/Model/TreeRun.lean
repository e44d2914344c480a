import Verif.Model.LongLineRun
import Verif.Model.RuleBase

/-!
# Rules of all kinds as parts of a run

Connects the models of the rule base classes with the model of the driver.  Every shipped rule is
derived from `AbstractASTVisitorRule` (directly, or through `AbstractASTMatcherRule`) or is the long line
rule.  What a rule finds in a declaration is a parameter here; it is the subject of the models of the
rules.
-/

namespace Oclint

/-- What rules read of an `ASTContext`. -/
structure TreeUnit where
  source : SourceUnit
  opts : LangOpts
  /-- the declarations of the translation unit, in order -/
  decls : List TopDecl
  tree : ParentMap
  locOf : Nat → NodeRange

/-- A call of `addViolation(node, this, message)`; all rules of the tree report on nodes. -/
structure Finding where
  node : Option Nat
  message : Str
  deriving Repr, DecidableEq

/-- A rule derived from `AbstractASTVisitorRule` (`AbstractASTVisitorRule.h:10-88`) or
`AbstractASTMatcherRule` (`AbstractASTMatcherRule.cpp:9-39`).  `τ` are the values of its members, which
stay as they are between units.  `traverse` is `TraverseDecl` of a top level declaration
(`AbstractASTVisitorRule.h:65-68`) with the visiting functions of the rule. -/
structure VisitorRule (τ : Type) where
  attributeName : Str
  languages : BitVec 32
  cudaAttrs : BitVec 32
  setUp : TreeUnit → τ → Outcome τ
  traverse : TreeUnit → τ → Nat → Outcome (τ × List Finding)
  tearDown : TreeUnit → τ → Outcome (τ × List Finding)

variable {τ : Type}

/-- `AbstractASTRuleBase.cpp:31-47`, for the calls of `addViolation` made one after the other. -/
def addFindings (apple : Bool) (r : VisitorRule τ) (rule : RuleId) (u : TreeUnit)
    (st : ViolationSet × SuppressCache) (fs : List Finding) : ViolationSet × SuppressCache :=
  fs.foldl
    (fun st f => addViolationNode apple u.tree u.locOf r.attributeName st.2 u.source st.1 f.node rule
      f.message) st

/-- One of the calls of `apply`. -/
def visitorStep (apple : Bool) (r : VisitorRule τ) (rule : RuleId) (u : TreeUnit)
    (st : (ViolationSet × SuppressCache) × τ) :
    VisitEvent → Outcome ((ViolationSet × SuppressCache) × τ)
  | .setUp => do
    let t ← r.setUp u st.2
    pure (st.1, t)
  | .traverse d => do
    let x ← r.traverse u st.2 d
    pure (addFindings apple r rule u st.1 x.2, x.1)
  | .tearDown => do
    let x ← r.tearDown u st.2
    pure (addFindings apple r rule u st.1 x.2, x.1)

/-- What stays in memory between units: the static maps of the suppression code, which each rule
library has for itself, and the members of the rule. -/
structure RuleMemory (τ : Type) where
  cache : SuppressCache
  members : τ

/-- `RuleBase.cpp:5-9`, `takeoff`, of a rule whose `apply` is that of `AbstractASTVisitorRule.h:14-63`. -/
def visitorTakeoff (apple : Bool) (r : VisitorRule τ) (rule : RuleId) (mem : RuleMemory τ)
    (u : TreeUnit) : Outcome (RuleMemory τ × List Report) := do
  let x ← (visitorApply u.opts r.languages r.cudaAttrs u.decls).foldlM (visitorStep apple r rule u)
    (([], mem.cache), mem.members)
  pure (⟨x.1.2, x.2⟩, x.1.1.map asReport)

/-- The rules there are. -/
inductive RuleBody (τ : Type) where
  | visitor (r : VisitorRule τ)
  | longLine

/-- `takeoff` of a rule. -/
def bodyTakeoff (apple : Bool) (cfg : Configurations) (b : RuleBody τ) (rule : RuleId)
    (mem : RuleMemory τ) (u : TreeUnit) : Outcome (RuleMemory τ × List Report) :=
  match b with
  | .visitor r => visitorTakeoff apple r rule mem u
  | .longLine => do
    let x ← longLineTakeoff apple cfg rule mem.cache u.source
    pure (⟨x.1, mem.members⟩, x.2)

/-- `takeoff` of the rules of a run.  Every rule is built as a library of its own
(`oclint-rules/rules/CMakeLists.txt:1-25`), so each has a memory of its own. -/
def rulesTakeoff (apple : Bool) (cfg : Configurations) (body : RuleId → RuleBody τ) (rule : RuleId)
    (mems : RuleId → RuleMemory τ) (u : TreeUnit) :
    Outcome ((RuleId → RuleMemory τ) × List Report) := do
  let x ← bodyTakeoff apple cfg (body rule) rule (mems rule) u
  pure (fun r => if r = rule then x.1 else mems r, x.2)

end Oclint
