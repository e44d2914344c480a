import Verif.Lemmas.Ast

/-! # Unnecessary `else`: what should be reported, written as a recursion over the tree -/

namespace Oclint.Spec

/-- Statements that return, by their form. -/
inductive Returns : Stmt → Prop where
  | ret (v) : Returns (.returnS v)
  | compound {b s} : s ∈ b → Returns s → Returns (.compound b)
  | ifS {p c t e} : Returns t → Returns e → Returns (.ifS p c t (some e))

def isIf : Stmt → Bool
  | .ifS _ _ _ _ => true
  | _ => false

/-- The then branches of a chain of `if`, `else if`, ... -/
def thens : Stmt → List Stmt
  | .ifS _ _ t (some e) => t :: thens e
  | .ifS _ _ t none => [t]
  | _ => []

/-- The `else` at the end of the chain. -/
def lastElse : Stmt → Option Stmt
  | .ifS _ _ _ (some e) => if isIf e then lastElse e else some e
  | _ => none

/-- The chain without the `else` at its end. -/
def withoutLastElse : Stmt → Stmt
  | .ifS p c t (some e) => .ifS p c t (if isIf e then some (withoutLastElse e) else none)
  | s => s

open Classical in
/-- What is reported for the chain that starts at this node. -/
noncomputable def chainReport (s : Stmt) : List Stmt :=
  if ∀ t ∈ thens s, Returns t then (lastElse s).toList else []

/-- All reports in a tree, from left to right.  The flag says that the tree is the `else` of an
`if`: such an `if` is part of a chain already looked at. -/
noncomputable def elseReports (inElse : Bool) (s : Stmt) : List Stmt :=
  (if isIf s && !inElse then chainReport s else []) ++
    match s with
    | .ifS p c t e =>
      p.toList.attach.flatMap (fun ⟨x, _⟩ => elseReports false x) ++ elseReports false c ++
        elseReports false t ++ e.toList.attach.flatMap (fun ⟨x, _⟩ => elseReports (isIf x) x)
    | s => s.kids.attach.flatMap (fun ⟨x, _⟩ => elseReports false x)
termination_by sizeOf s
decreasing_by
  all_goals first
    | (apply Stmt.sizeOf_kid; simp_all [Stmt.kids]; done)
    | (simp_wf; rename_i h; first
        | (have := Stmt.sizeOf_kid h; simpa using this)
        | omega)

end Oclint.Spec
