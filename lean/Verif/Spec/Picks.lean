import Verif.Model.Basic

/-!
# Picking from a list
-/

namespace Oclint.Spec

/-- `k` has exactly the members of `l` with a property, in order and each as often as it is in
`l`. -/
inductive Picks {α : Type} (P : α → Prop) : List α → List α → Prop where
  | nil : Picks P [] []
  | take {a l k} : P a → Picks P l k → Picks P (a :: l) (a :: k)
  | pass {a l k} : ¬ P a → Picks P l k → Picks P (a :: l) k

end Oclint.Spec

namespace Oclint
open Spec

theorem picks_filter {α : Type} {P : α → Prop} {p : α → Bool} {l : List α}
    (h : ∀ a ∈ l, p a = true ↔ P a) : Picks P l (l.filter p) := by
  induction l with
  | nil => exact .nil
  | cons a l ih =>
    have ih' := ih fun b hb => h b (List.mem_cons_of_mem _ hb)
    rw [List.filter_cons]
    split
    · next hp => exact .take ((h a List.mem_cons_self).1 hp) ih'
    · next hp => exact .pass (fun hP => hp ((h a List.mem_cons_self).2 hP)) ih'

theorem mem_picks {α : Type} {P : α → Prop} {l k : List α} (h : Picks P l k) (a : α) :
    a ∈ k ↔ a ∈ l ∧ P a := by
  induction h with
  | nil => simp
  | take hP _ ih =>
    rw [List.mem_cons, List.mem_cons, ih]
    constructor
    · rintro (rfl | ⟨h1, h2⟩)
      · exact ⟨.inl rfl, hP⟩
      · exact ⟨.inr h1, h2⟩
    · rintro ⟨rfl | h1, h2⟩
      · exact .inl rfl
      · exact .inr ⟨h1, h2⟩
  | pass hP _ ih =>
    rw [List.mem_cons, ih]
    constructor
    · rintro ⟨h1, h2⟩; exact ⟨.inr h1, h2⟩
    · rintro ⟨rfl | h1, h2⟩
      · exact absurd h2 hP
      · exact ⟨h1, h2⟩

end Oclint
