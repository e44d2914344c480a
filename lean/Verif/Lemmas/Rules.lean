import Verif.Model.RulesControl
import Verif.Spec.ShortNames
import Verif.Spec.Metrics
import Verif.Lemmas.Ast
import Verif.Lemmas.Metrics

/-! Facts about traversals shared by the rules. -/

namespace Oclint
open Spec

/-- The traversal of a tree reaches exactly the nodes in it. -/
theorem below_nodes (r s : Stmt) : Below [r] s ↔ s ∈ r.nodes := by
  constructor
  · intro h
    induction h with
    | root h => rw [List.mem_singleton.1 h]; exact Stmt.self_mem_nodes _
    | @child p s _ hk hp =>
      have h : ∀ r : Stmt, p ∈ r.nodes → s ∈ r.nodes := by
        intro r
        induction r using Stmt.kidsInd with
        | ih r ih =>
          intro hp
          rw [Stmt.nodes_eq] at hp ⊢
          rcases List.mem_cons.1 hp with rfl | hp
          · exact List.mem_cons_of_mem _ (List.mem_flatMap.2 ⟨s, hk, Stmt.self_mem_nodes _⟩)
          · obtain ⟨k, hk', hp⟩ := List.mem_flatMap.1 hp
            exact List.mem_cons_of_mem _ (List.mem_flatMap.2 ⟨k, hk', ih k hk' hp⟩)
      exact h r hp
  · intro hs
    have : ∀ q, Below [r] q → s ∈ Stmt.nodes q → Below [r] s := by
      clear hs
      intro q
      induction q using Stmt.kidsInd with
      | ih q ih =>
        intro hb hs
        rw [Stmt.nodes_eq] at hs
        rcases List.mem_cons.1 hs with rfl | hs
        · exact hb
        · obtain ⟨k, hk, hs⟩ := List.mem_flatMap.1 hs
          exact ih k hk (.child hb hk) hs
    exact this r (.root (List.mem_singleton.2 rfl)) hs

/-- A rule without state reports what it reports for the nodes in the tree. -/
theorem reportOver_iff (visit : Stmt → List Stmt) (root r : Stmt) :
    r ∈ reportOver visit root ↔ ∃ s, Below [root] s ∧ r ∈ visit s := by
  simp only [reportOver, List.mem_flatMap, below_nodes]

open Classical in
/-- Collecting the nodes with a property finds as many as there are. -/
theorem tally_filter (p : Stmt → Bool) (P : Stmt → Prop) (hp : ∀ s, p s = true ↔ P s) (s : Stmt) :
    Tally (fun s => if P s then 1 else 0) Stmt.kids [s] (s.nodes.filter p).length := by
  induction s using Stmt.kidsInd with
  | ih s ih =>
    have hl : ∀ l : List Stmt, (∀ k ∈ l, Tally (fun s => if P s then 1 else 0) Stmt.kids [k]
        (k.nodes.filter p).length) →
        Tally (fun s => if P s then 1 else 0) Stmt.kids l ((l.flatMap Stmt.nodes).filter p).length := by
      intro l
      induction l with
      | nil => intro _; exact .nil
      | cons k l ihl =>
        intro h
        rw [List.flatMap_cons, List.filter_append, List.length_append]
        exact tally_cons.2 ⟨_, _, h k (by simp), ihl fun k' hk => h k' (by simp [hk]), rfl⟩
    refine tally_single.2 ⟨_, hl _ ih, ?_⟩
    rw [Stmt.nodes_eq, List.filter_cons]
    by_cases h : P s
    · rw [if_pos ((hp s).2 h), if_pos h, List.length_cons]; omega
    · rw [if_neg (fun h' => h ((hp s).1 h')), if_neg h]; omega

theorem gathers_filter (p : Stmt → Bool) (P : Stmt → Prop) (hp : ∀ s, p s = true ↔ P s) (s : Stmt) :
    Gathers P [s] (s.nodes.filter p) := by
  have hone : ∀ (s : Stmt) (r b : List Stmt), Gathers P s.kids ((s.kids.flatMap Stmt.nodes).filter p) →
      Gathers P r b → Gathers P (s :: r) (s.nodes.filter p ++ b) := by
    intro s r b h1 h2
    rw [Stmt.nodes_eq, List.filter_cons]
    by_cases h : P s
    · rw [if_pos ((hp s).2 h), List.cons_append]
      exact .take h h1 h2
    · rw [if_neg (fun h' => h ((hp s).1 h'))]
      exact .leave h h1 h2
  have hall : ∀ s : Stmt, Gathers P s.kids ((s.kids.flatMap Stmt.nodes).filter p) := by
    intro s
    induction s using Stmt.kidsInd with
    | ih s ih =>
      have hl : ∀ l : List Stmt, (∀ k ∈ l, Gathers P k.kids ((k.kids.flatMap Stmt.nodes).filter p)) →
          Gathers P l ((l.flatMap Stmt.nodes).filter p) := by
        intro l
        induction l with
        | nil => intro _; exact .nil
        | cons k l ihl =>
          intro h
          rw [List.flatMap_cons, List.filter_append]
          exact hone k l _ (h k (by simp)) (ihl fun k' hk => h k' (by simp [hk]))
      exact hl _ ih
  have := hone s [] [] (hall s) .nil
  rwa [List.append_nil] at this

theorem gathers_append {P : Stmt → Prop} {s : Stmt} {r a b : List Stmt} (h1 : Gathers P [s] a)
    (h2 : Gathers P r b) : Gathers P (s :: r) (a ++ b) := by
  cases h1 with
  | take h ha hb => cases hb; rw [List.append_nil, List.cons_append]; exact .take h ha h2
  | leave h ha hb => cases hb; rw [List.append_nil]; exact .leave h ha h2

theorem gathers_filter_list (p : Stmt → Bool) (P : Stmt → Prop) (hp : ∀ s, p s = true ↔ P s)
    (l : List Stmt) : Gathers P l ((l.flatMap Stmt.nodes).filter p) := by
  induction l with
  | nil => exact .nil
  | cons s l ih =>
    rw [List.flatMap_cons, List.filter_append]
    exact gathers_append (gathers_filter p P hp s) ih

end Oclint
