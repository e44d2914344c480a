import Verif.Model.Ast

/-! Induction over syntax trees and the traversal order. -/

namespace Oclint.Stmt

theorem sizeOf_mem_toList {o : Option Stmt} {k : Stmt} (h : k ∈ o.toList) :
    sizeOf k < sizeOf o := by
  cases o with
  | none => simp at h
  | some x => simp at h; subst h; simp

/-- Every child is a smaller tree. -/
theorem sizeOf_kid {s k : Stmt} (h : k ∈ s.kids) : sizeOf k < sizeOf s := by
  have L : ∀ {l : List Stmt}, k ∈ l → sizeOf k < sizeOf l := fun hk => List.sizeOf_lt_of_mem hk
  have O : ∀ {o : Option Stmt}, k ∈ o.toList → sizeOf k < sizeOf o := fun hk => sizeOf_mem_toList hk
  cases s <;> simp only [kids, List.mem_cons, List.mem_append, List.not_mem_nil, or_false]
    at h <;> (try exact absurd h id) <;>
    simp only [compound.sizeOf_spec, ifS.sizeOf_spec, whileS.sizeOf_spec, doS.sizeOf_spec,
      forS.sizeOf_spec, forRange.sizeOf_spec, forIn.sizeOf_spec, switchS.sizeOf_spec,
      caseS.sizeOf_spec, defaultS.sizeOf_spec, labelS.sizeOf_spec, indirectGoto.sizeOf_spec,
      returnS.sizeOf_spec, declS.sizeOf_spec, varD.sizeOf_spec, cxxTry.sizeOf_spec,
      cxxCatch.sizeOf_spec, atTry.sizeOf_spec, atCatch.sizeOf_spec, atFinally.sizeOf_spec,
      atSynchronized.sizeOf_spec, autoreleasePool.sizeOf_spec, atThrow.sizeOf_spec,
      otherS.sizeOf_spec, unary.sizeOf_spec, binary.sizeOf_spec, condOp.sizeOf_spec,
      paren.sizeOf_spec, cast.sizeOf_spec, member.sizeOf_spec, message.sizeOf_spec,
      call.sizeOf_spec, throwE.sizeOf_spec, deleteE.sizeOf_spec, cleanups.sizeOf_spec,
      otherE.sizeOf_spec]
  all_goals
    first
      | (have := L h; omega)
      | (have := O h; omega)
      | (rcases h with h | h | h | h <;>
          first | (subst h; omega) | (have := O h; omega) | (have := L h; omega))
      | (rcases h with ((h | h) | h) | h <;>
          first | (subst h; omega) | (have := O h; omega) | (have := L h; omega))
      | (rcases h with h | h | h <;>
          first | (subst h; omega) | (have := O h; omega) | (have := L h; omega))
      | (rcases h with (h | h) | h <;>
          first | (subst h; omega) | (have := O h; omega) | (have := L h; omega))
      | (rcases h with h | h <;>
          first | (subst h; omega) | (have := O h; omega) | (have := L h; omega))
      | (subst h; omega)

/-- Induction on children. -/
theorem kidsInd {P : Stmt → Prop} (ih : ∀ s, (∀ k ∈ s.kids, P k) → P s) (s : Stmt) : P s :=
  ih s fun k _hk => kidsInd ih k
termination_by sizeOf s
decreasing_by exact sizeOf_kid _hk

theorem nodesL_eq (l : List Stmt) : nodesL l = l.flatMap nodes := by
  induction l with
  | nil => rfl
  | cons s r ih => simp [nodesL, ih]

theorem nodesO_eq (o : Option Stmt) : nodesO o = o.toList.flatMap nodes := by
  cases o <;> simp [nodesO]

/-- The traversal visits a node, then its children from left to right. -/
theorem nodes_eq (s : Stmt) : nodes s = s :: s.kids.flatMap nodes := by
  cases s <;> simp [nodes, kids, nodesL_eq, nodesO_eq]

theorem self_mem_nodes (s : Stmt) : s ∈ nodes s := by rw [nodes_eq]; exact List.mem_cons_self

end Oclint.Stmt
