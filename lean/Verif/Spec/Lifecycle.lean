import Verif.Model.Lifecycle
import Verif.Spec.Run

/-!
# Specification of the lives of compilers
-/

namespace Oclint.Spec
open Oclint

variable {U σ : Type}

/-- The inputs of a compiler, with their numbers. -/
def inputsOf (r : CompileResult U) : List (Bool × Nat) := if r.hasTarget then r.begins.zipIdx else []

/-- A compiler is made and works on its inputs. -/
def opening (r : CompileResult U) (k : Nat) : List LifeEvent :=
  .create k :: (inputsOf r).flatMap fun i =>
    .begin k i.2 i.1 :: if i.1 then [.execute k i.2] else []

/-- A compiler ends: the inputs that were begun, then the diagnostics. -/
def closing (r : CompileResult U) (k : Nat) : List LifeEvent :=
  ((inputsOf r).filter fun i => i.1).map (fun i => .endFile k i.2) ++ [.finish k]

/-- All rules look at a unit. -/
def looks (rules : List RuleId) (k : Nat) : List LifeEvent := rules.map fun rule => .look k rule

/-- The compilers that yield a unit, with their numbers. -/
def good (rs : List (CompileResult U)) : List (CompileResult U × Nat) :=
  rs.zipIdx.filter fun p => (unitOf p.1).isSome

/-- All are made, then all units are looked at, then all are released. -/
def togetherTrace (rules : List RuleId) (rs : List (CompileResult U)) : List LifeEvent :=
  (rs.zipIdx.flatMap fun p => opening p.1 p.2) ++
    ((good rs).flatMap fun p => looks rules p.2) ++
    ((good rs).flatMap fun p => closing p.1 p.2 ++ [.delete p.2])

/-- The life of a compiler of the first pass. -/
def wholeLife (rules : List RuleId) (r : CompileResult U) (k : Nat) : List LifeEvent :=
  opening r k ++ if (unitOf r).isSome then looks rules k ++ closing r k ++ [.delete k] else []

/-- One after the other. -/
def separateTrace (rules : List RuleId) (rs : List (CompileResult U)) : List LifeEvent :=
  rs.zipIdx.flatMap fun p => wholeLife rules p.1 p.2

/-- The first pass, as far as it gets: `full` says whether all jobs are compiled. -/
def passTrace (together full : Bool) (rules : List RuleId) (rs : List (CompileResult U)) :
    List LifeEvent :=
  if together then
    if full then togetherTrace rules rs else rs.zipIdx.flatMap fun p => opening p.1 p.2
  else separateTrace rules rs

/-- The second pass; its compilers are never deleted. -/
def checkerTrace (n : Nat) (bugs : List (CompileResult U)) : List LifeEvent :=
  (bugs.zipIdx n).flatMap fun p => opening p.1 p.2 ++ closing p.1 p.2

/-- The compiler an event is about. -/
def compilerOf : LifeEvent → Nat
  | .create k => k
  | .begin k _ _ => k
  | .execute k _ => k
  | .look k _ => k
  | .endFile k _ => k
  | .finish k => k
  | .delete k => k

/-- The stage of a life an event belongs to. -/
def stageOf : LifeEvent → Nat
  | .create _ => 0
  | .begin _ _ _ => 1
  | .execute _ _ => 1
  | .look _ _ => 2
  | .endFile _ _ => 3
  | .finish _ => 4
  | .delete _ => 5

/-- `x` may come before `y` in a life: the stages do not go back, and only looking is repeated. -/
def Before (x y : LifeEvent) : Prop :=
  stageOf x < stageOf y ∨
    stageOf x = stageOf y ∧ (stageOf x = 2 ∨ x ≠ y) ∧
      stageOf x ∈ [1, 2, 3]

/-- How the events of a run come about if all rules return: the results of the first pass, whether it was complete, and
the results of the second pass. -/
inductive RunTrace (tc : Toolchain U) (exe : Str) (together checker : Bool) (rules : List RuleId)
    (cwd : Str) (jobs : List (Str × CompileCommand)) : Bool → List (CompileResult U) →
    List (CompileResult U) → List LifeEvent → Prop where
  | partway {before after : List (Str × CompileCommand)} {job : Str × CompileCommand}
      {rs : List (CompileResult U)} {mid : Str} : jobs = before ++ job :: after →
      CompileAll tc exe false cwd before rs mid → (¬ ∃ r mid', Compiles tc exe false mid job r mid') →
      RunTrace tc exe together checker rules cwd jobs false rs [] (passTrace together false rules rs)
  | plain {rs : List (CompileResult U)} {mid : Str} : checker = false →
      CompileAll tc exe false cwd jobs rs mid →
      RunTrace tc exe together checker rules cwd jobs true rs [] (passTrace together true rules rs)
  | checkedPartway {before after : List (Str × CompileCommand)} {job : Str × CompileCommand}
      {rs bugs : List (CompileResult U)} {mid mid' : Str} : checker = true →
      CompileAll tc exe false cwd jobs rs mid → jobs = before ++ job :: after →
      CompileAll tc exe true mid before bugs mid' →
      (¬ ∃ r mid'', Compiles tc exe true mid' job r mid'') →
      RunTrace tc exe together checker rules cwd jobs true rs bugs
        (passTrace together true rules rs ++ checkerTrace rs.length bugs)
  | checked {rs bugs : List (CompileResult U)} {mid mid' : Str} : checker = true →
      CompileAll tc exe false cwd jobs rs mid → CompileAll tc exe true mid jobs bugs mid' →
      RunTrace tc exe together checker rules cwd jobs true rs bugs
        (passTrace together true rules rs ++ checkerTrace rs.length bugs)

/-- Every rule returns from every unit of `rs` that is looked at. -/
def Undisturbed (a : Analyzer U σ) (s : σ) (together full : Bool) (rs : List (CompileResult U)) : Prop :=
  (together = true ∧ full = false) ∨ ∃ found s', CheckedAll a s (rs.filterMap unitOf) found s'

/-- The rules `seen` return from a unit, then `rule` does not. -/
inductive LeavesOff (a : Analyzer U σ) (u : U) (s : σ) (seen : List RuleId) (rule : RuleId) : Prop where
  | mk (after : List RuleId) (found : List Violation) (mid : σ) :
      a.filteredRules = seen ++ rule :: after → Checked a u s seen found mid →
      (∀ x, a.takeoff rule mid u ≠ .ok x) → LeavesOff a u s seen rule

/-- The events of a run that is interrupted by the rule `rule` at the unit of compiler `k`; `rs` are
the results of the compilers there are. -/
inductive Interrupted (tc : Toolchain U) (exe : Str) (a : Analyzer U σ) (cwd : Str) (s : σ)
    (jobs : List (Str × CompileCommand)) :
    Bool → List (CompileResult U) → Nat → RuleId → List LifeEvent → Prop where
  | together {rs : List (CompileResult U)} {mid : Str} {before after : List (CompileResult U × Nat)}
      {r : CompileResult U} {k : Nat} {u : U} {found : List (List Violation)} {s' : σ}
      {seen : List RuleId} {rule : RuleId} : CompileAll tc exe false cwd jobs rs mid →
      good rs = before ++ (r, k) :: after → unitOf r = some u →
      CheckedAll a s (before.filterMap fun p => unitOf p.1) found s' → LeavesOff a u s' seen rule →
      Interrupted tc exe a cwd s jobs true rs k rule
        ((rs.zipIdx.flatMap fun p => opening p.1 p.2) ++
          (before.flatMap fun p => looks a.filteredRules p.2) ++ looks (seen ++ [rule]) k)
  | separate {rs : List (CompileResult U)} {mid mid' : Str} {before after : List (Str × CompileCommand)}
      {job : Str × CompileCommand} {r : CompileResult U} {u : U} {found : List (List Violation)} {s' : σ}
      {seen : List RuleId} {rule : RuleId} : jobs = before ++ job :: after →
      CompileAll tc exe false cwd before rs mid → Compiles tc exe false mid job r mid' →
      unitOf r = some u → CheckedAll a s (rs.filterMap unitOf) found s' → LeavesOff a u s' seen rule →
      Interrupted tc exe a cwd s jobs false (rs ++ [r]) rs.length rule
        (separateTrace a.filteredRules rs ++ opening r rs.length ++ looks (seen ++ [rule]) rs.length)

/-- The life of compiler `k`. -/
def lifeOf (together full : Bool) (rules : List RuleId) (rs bugs : List (CompileResult U)) (k : Nat) :
    List LifeEvent :=
  match rs[k]? with
  | some r => if together && !full then opening r k else wholeLife rules r k
  | none =>
    match bugs[k - rs.length]? with
    | some r => opening r k ++ closing r k
    | none => []

/-- Two computations end in the same way. -/
inductive SameEnd {α β : Type} (R : α → β → Prop) : Outcome α → Outcome β → Prop where
  | ok {a : α} {b : β} : R a b → SameEnd R (.ok a) (.ok b)
  | throws (w : Str) : SameEnd R (.throws w) (.throws w)
  | ub : SameEnd R .ub .ub

end Oclint.Spec
