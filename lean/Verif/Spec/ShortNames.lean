import Verif.Model.ShortNames
import Verif.Spec.Registry

/-!
# Which variable names are too short
-/

namespace Oclint.Spec
open Oclint

/-- `Below roots s`: the node `s` occurs in one of the trees `roots`. -/
inductive Below : List Stmt → Stmt → Prop where
  | root {roots s} : s ∈ roots → Below roots s
  | child {roots p s} : Below roots p → s ∈ p.kids → Below roots s

/-- The declarations in the header of a loop or catch clause. -/
inductive Header : Stmt → List Stmt → Prop where
  | forS (ds c n b) : Header (.forS (some (.declS ds)) c n b) ds
  | forIn (ds c b) : Header (.forIn (.declS ds) c b) ds
  | forRange (r d ds b) : Header (.forRange r (.declS (d :: ds)) b) [d]
  | cxxCatch (p b) : Header (.cxxCatch (some p) b) [p]

/-- Declared in the header of a loop or as exception variable. -/
def LoopVariable (roots : List Stmt) (d : DeclId) : Prop :=
  ∃ s ds i, Below roots s ∧ Header s ds ∧ Stmt.varD d i ∈ ds

/-- A name that is there but shorter than the threshold. -/
def Short (threshold : Int) (d : DeclId) : Prop :=
  d.name ≠ [] ∧ (d.name.length : Int) < threshold

/-- The description for a short name. -/
def shortMessage (threshold : Int) (d : DeclId) : Str :=
  "Length of variable name `".toList ++ d.name ++ "` is ".toList ++ decimal d.name.length ++
    ", which is shorter than the threshold of ".toList ++ decimalInt threshold

/-- The variable declarations of a list of nodes. -/
def varsOf (nodes : List Stmt) : List DeclId :=
  nodes.filterMap fun s => match s with
    | .varD d _ => some d
    | _ => none

/-! ## Which variables are exempt -/

/-- A loop with a header, or a catch clause. -/
def Opens (s : Stmt) : Prop :=
  (∃ i c n b, s = .forS i c n b) ∨ (∃ r v b, s = .forRange r v b) ∨ (∃ e c b, s = .forIn e c b) ∨
    ∃ p b, s = .cxxCatch p b

/-- The variables declared in its header, if it declares any. -/
def HeaderVars (s : Stmt) (vars : List DeclId) : Prop :=
  Opens s ∧ ((∃ ds, Header s ds ∧ vars = varsOf ds) ∨ ((∀ ds, ¬ Header s ds) ∧ vars = []))

/-- The variables of the last header among the nodes visited so far, and the nodes after it; if there is no
header, what earlier translation units have left over. -/
def LastHeader (left : List DeclId) (visited : List Stmt) (vars : List DeclId) (after : List Stmt) : Prop :=
  (∀ s ∈ after, ¬ Opens s) ∧
    ((visited = after ∧ vars = left) ∨ ∃ before s, visited = before ++ s :: after ∧ HeaderVars s vars)

open Classical in
/-- How many variables have short names. -/
noncomputable def shortOnes (threshold : Int) (nodes : List Stmt) : Nat :=
  ((varsOf nodes).filter fun d => decide (Short threshold d)).length

/-- The variables of the last header that still are to come: each variable with a short name, whichever it
is, counts as one of them. -/
def Awaited (threshold : Int) (left : List DeclId) (visited : List Stmt) (vars : List DeclId) : Prop :=
  ∃ all after, LastHeader left visited all after ∧ vars = all.drop (shortOnes threshold after)

/-- A variable is exempt if it is the one to come. -/
def ExemptHere (threshold : Int) (left : List DeclId) (visited : List Stmt) (d : DeclId) : Prop :=
  ∃ e rest, Awaited threshold left visited (e :: rest) ∧ d.id = e.id

/-- What is reported about the nodes visited so far. -/
inductive ShortReports (threshold : Int) (left : List DeclId) : List Stmt → List (DeclId × Str) → Prop where
  | nil : ShortReports threshold left [] []
  | told {visited rs d i} : ShortReports threshold left visited rs → Short threshold d →
      ¬ ExemptHere threshold left visited d →
      ShortReports threshold left (visited ++ [.varD d i]) (rs ++ [(d, shortMessage threshold d)])
  | silent {visited rs s} : ShortReports threshold left visited rs →
      (∀ d i, s = .varD d i → Short threshold d → ExemptHere threshold left visited d) →
      ShortReports threshold left (visited ++ [s]) rs

end Oclint.Spec
