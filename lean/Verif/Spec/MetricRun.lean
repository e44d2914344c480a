import Verif.Model.MetricRun
import Verif.Spec.Options
import Verif.Spec.Thresholds
import Verif.Spec.TreeRun

/-!
# Specification of a run of the rules with limits
-/

namespace Oclint.Spec
open Oclint

/-- What their documentation calls the rules, and their priorities. -/
def limitRuleNames : MetricRule → Str × Int
  | .cyclomatic => ("high cyclomatic complexity".toList, 2)
  | .npath => ("high npath complexity".toList, 2)
  | .ncss => ("high ncss method".toList, 2)
  | .depth => ("deep nested block".toList, 3)
  | .longMethod => ("long method".toList, 3)
  | .longClass => ("long class".toList, 3)
  | .fields => ("too many fields".toList, 3)
  | .methods => ("too many methods".toList, 3)
  | .parameters => ("too many parameters".toList, 3)
  | .longName => ("long variable name".toList, 3)

/-- `Oversized r limit ss fs`: `fs` are the findings the rule is supposed to make among the constructs
`ss`, in order. -/
inductive Oversized (r : MetricRule) (limit : Int) : List Sight → List Finding → Prop where
  | nil : Oversized r limit [] []
  | above {s ss fs m} : Applies r s.construct → Measure r s.construct m → limit < m →
      Oversized r limit ss fs →
      Oversized r limit (s :: ss) (⟨some s.node, message r s.construct m limit⟩ :: fs)
  | notAbove {s ss fs m} : Applies r s.construct → Measure r s.construct m → m ≤ limit →
      Oversized r limit ss fs → Oversized r limit (s :: ss) fs
  | other {s ss fs} : ¬ Applies r s.construct → Oversized r limit ss fs →
      Oversized r limit (s :: ss) fs

/-- The rules look at sources of all languages. -/
def InSomeLanguage (u : TreeUnit) : Prop := u.opts.cuda = true ∨ ∃ l, InLanguage u.opts l

open Classical in
/-- The declarations they look at: those of the main file, except for the kernels of CUDA sources, which
only one of the rules looks at. -/
noncomputable def limitDecls (r : MetricRule) (u : TreeUnit) : List Nat :=
  (u.decls.filter fun d => decide (InMain d ∧
    (u.opts.cuda = true → d.isFunction = true → d.hasCUDAGlobal = true → r = .cyclomatic))).map
      TopDecl.id

/-- What a rule is supposed to find in a unit. -/
def LimitFindings (sights : TreeUnit → Nat → List Sight) (r : MetricRule) (limit : Int) (u : TreeUnit)
    (fs : List Finding) : Prop :=
  (InSomeLanguage u ∧ Oversized r limit ((limitDecls r u).flatMap (sights u)) fs) ∨
    (¬ InSomeLanguage u ∧ fs = [])

/-- A text is set for the limit of the rule, or nothing is and the default stands. -/
def LimitSet (e : Env) (rc : List (Str × Str)) (r : MetricRule) (t : Int) : Prop :=
  match configured (limitKey r).toList (settings e rc) with
  | none => t = limitDefault r
  | some v => BeginsWithNumber v t ∧ IsInt32 t

/-- A run of rules with limits, those of the list `rules`: `limits` are the limits, `found` what the rules are supposed to find;
the other fields are those of `RulesRun`. -/
structure LimitsRun {κ : Type} (m : Machine TreeUnit (RuleId → RuleMemory Int) κ) (st : OptionState)
    (apple : Bool) (body : RuleId → RuleBody Int) (rules : List MetricRule)
    (sights : TreeUnit → Nat → List Sight) (limits : MetricRule → Int) (found : MetricRule → TreeUnit → List Finding)
    (rs bugs : List (CompileResult TreeUnit)) : Prop where
  takeoff : m.takeoff = rulesTakeoff apple st.configurations body
  bodies : ∀ r ∈ rules, body (metricId r) = .visitor (metricVisitor st.configurations sights r)
  running : runningRules m st = rules.map metricId
  fresh : ∀ r, (m.initialRules r).cache = SuppressCache.empty
  limit : ∀ r ∈ rules, LimitIs st.configurations r (limits r)
  positive : ∀ r ∈ rules, r = .parameters ∨ r = .longName → 0 ≤ limits r
  findings : ∀ r ∈ rules, ∀ u ∈ rs.filterMap unitOf,
    LimitFindings sights r (limits r) u (found r u)
  compiled : ∃ cwd, CompileAll m.toolchain m.mainExecutable false m.env.cwd
    (jobsOf m.toolchain m.db m.sources) rs cwd ∧
    CheckerPass m.toolchain m.mainExecutable st.argClangChecker.value cwd
      (jobsOf m.toolchain m.db m.sources) bugs
  named : ∀ u ∈ rs.filterMap unitOf, u.source.mainPath ≠ []
  agree : ∀ u ∈ rs.filterMap unitOf, ∀ v ∈ rs.filterMap unitOf,
    u.source.mainPath = v.source.mainPath →
      u.source.comments = v.source.comments ∧ u.source.topDecls = v.source.topDecls

/-- What is reported in such a run: the findings of the rules that run, for one unit after the other,
without those that are silenced. -/
noncomputable def limitReports (apple : Bool) (rules : List MetricRule)
    (found : MetricRule → TreeUnit → List Finding) (us : List TreeUnit) : List Violation :=
  us.flatMap fun u => rules.flatMap fun r =>
    (found r u).filterMap (reportOf apple (limitRuleNames r).1 (metricId r) u)

end Oclint.Spec
