import Verif.Model.TreeRun
import Verif.Spec.LongLineRun

/-!
# Specification of a run of several rules
-/

namespace Oclint.Spec
open Oclint

variable {τ : Type}

/-- The node, or a declaration around it, is annotated to silence the rule. -/
def NodeSilenced (pm : ParentMap) (rule : Str) (n : Nat) : Prop :=
  (∃ d, pm.kind n = .decl d ∧ Silenced rule d) ∨
    ∃ p d, Ancestor pm n p ∧ pm.kind p = .decl d ∧ Silenced rule d

/-- The rule looks at the unit. -/
def Concerned (r : VisitorRule τ) (u : TreeUnit) : Prop :=
  u.opts.cuda = true ∨
    (∃ l, InLanguage u.opts l ∧ r.languages.getLsbD l.bit = true) ∧ r.cudaAttrs.getLsbD 0 = true

open Classical in
/-- The declarations of the unit that the rule looks at: those of the main file; in CUDA sources only
those it wants. -/
noncomputable def shownDecls (r : VisitorRule τ) (u : TreeUnit) : List Nat :=
  (u.decls.filter fun d => decide (InMain d ∧ (u.opts.cuda = true → WantsCUDA r.cudaAttrs d))).map
    TopDecl.id

/-- What the rule finds in declarations, one after the other. -/
inductive Visits (r : VisitorRule τ) (u : TreeUnit) : τ → List Nat → List Finding → τ → Prop where
  | nil (t : τ) : Visits r u t [] [] t
  | cons {t t' t'' : τ} {d : Nat} {ds : List Nat} {fs gs : List Finding} :
      r.traverse u t d = .ok (t', fs) → Visits r u t' ds gs t'' → Visits r u t (d :: ds) (fs ++ gs) t''

/-- What the rule finds in a unit. -/
inductive FindsIn (r : VisitorRule τ) (u : TreeUnit) : τ → List Finding → τ → Prop where
  | skipped (t : τ) : ¬ Concerned r u → FindsIn r u t [] t
  | looked {t t0 t1 t2 : τ} {fs gs : List Finding} : Concerned r u → r.setUp u t = .ok t0 →
      Visits r u t0 (shownDecls r u) fs t1 → r.tearDown u t1 = .ok (t2, gs) →
      FindsIn r u t (fs ++ gs) t2

/-- The rule finds this in the unit, whatever it did before. -/
def Steady (r : VisitorRule τ) (u : TreeUnit) (fs : List Finding) : Prop :=
  ∀ t, ∃ t', FindsIn r u t fs t'

open Classical in
/-- What is reported of a finding: nothing if it is on no node, if a declaration around it silences the
rule, if its first line has a marked comment, or if it is in no file. -/
noncomputable def reportOf (apple : Bool) (name : Str) (rule : RuleId) (u : TreeUnit) (f : Finding) :
    Option Violation :=
  match f.node with
  | none => none
  | some n =>
    if NodeSilenced u.tree name n ∨ LineSuppressed apple u.source (u.locOf n).startLine ∨
        (u.locOf n).filename = [] then none
    else some
      { rule := some rule, path := (u.locOf n).filename, startLine := (u.locOf n).startLine,
        startColumn := (u.locOf n).startColumn, endLine := (u.locOf n).endLine,
        endColumn := (u.locOf n).endColumn, message := f.message }

/-- What is reported of a rule for a unit. -/
noncomputable def reportsOf (apple : Bool) (limit : Int) (linesOf : TreeUnit → List Str)
    (found : RuleId → TreeUnit → List Finding) (body : RuleId → RuleBody τ) (u : TreeUnit)
    (rule : RuleId) : List Violation :=
  match body rule with
  | .visitor r => (found rule u).filterMap (reportOf apple r.attributeName rule u)
  | .longLine => tooLongLines apple rule limit u.source (linesOf u)

/-- All that is reported in such a run, in order. -/
noncomputable def allReports (apple : Bool) (body : RuleId → RuleBody τ) (limit : Int)
    (linesOf : TreeUnit → List Str) (found : RuleId → TreeUnit → List Finding) (rules : List RuleId)
    (us : List TreeUnit) : List Violation :=
  us.flatMap fun u => rules.flatMap (reportsOf apple limit linesOf found body u)

/-- Compiling for clang's static analyzer, if it is asked for. -/
def CheckerPass {U : Type} (tc : Toolchain U) (exe : Str) (checker : Bool) (cwd : Str)
    (jobs : List (Str × CompileCommand)) (bugs : List (CompileResult U)) : Prop :=
  (checker = false ∧ bugs = []) ∨ (checker = true ∧ ∃ cwd', CompileAll tc exe true cwd jobs bugs cwd')

/-- A run of rules of the tree and of the long line rule, in which everything compiles: `rs` are the
results, `bugs` those of clang's static analyzer.  Files that are compiled more than once have the same
comments and annotations each time. -/
structure RulesRun {κ : Type} (m : Machine TreeUnit (RuleId → RuleMemory τ) κ) (st : OptionState)
    (apple : Bool) (body : RuleId → RuleBody τ) (limit : Int) (linesOf : TreeUnit → List Str)
    (found : RuleId → TreeUnit → List Finding) (rs bugs : List (CompileResult TreeUnit)) : Prop where
  takeoff : m.takeoff = rulesTakeoff apple st.configurations body
  fresh : ∀ r, (m.initialRules r).cache = SuppressCache.empty
  steady : ∀ rule ∈ runningRules m st, ∀ r, body rule = .visitor r →
    ∀ u ∈ rs.filterMap unitOf, Steady r u (found rule u)
  limit : ∀ rule ∈ runningRules m st, body rule = .longLine →
    ∃ cfg, st.configurations.intForKey "LONG_LINE".toList 100 = .ok (limit, cfg)
  compiled : ∃ cwd, CompileAll m.toolchain m.mainExecutable false m.env.cwd
    (jobsOf m.toolchain m.db m.sources) rs cwd ∧
    CheckerPass m.toolchain m.mainExecutable st.argClangChecker.value cwd
      (jobsOf m.toolchain m.db m.sources) bugs
  lines : ∀ u ∈ rs.filterMap unitOf, IsLines u.source.buffer (linesOf u)
  named : ∀ u ∈ rs.filterMap unitOf, u.source.mainPath ≠ []
  agree : ∀ u ∈ rs.filterMap unitOf, ∀ v ∈ rs.filterMap unitOf,
    u.source.mainPath = v.source.mainPath →
      u.source.comments = v.source.comments ∧ u.source.topDecls = v.source.topDecls

end Oclint.Spec
