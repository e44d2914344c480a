import Verif.Model.SortTable

/-!
# What sorting a table means

Stated for keys of any type, with `before a b` for "`a` has to come before `b`".
-/

namespace Oclint.Spec

/-- A strict weak order. -/
structure StrictWeak {κ : Type} (before : κ → κ → Bool) : Prop where
  asymm : ∀ a b, before a b = true → before b a = false
  negTrans : ∀ a b c, before a b = false → before b c = false → before a c = false

/-- No row comes after one it has to come before. -/
def Ordered {α κ : Type} (key : α → κ) (before : κ → κ → Bool) (rows : List α) : Prop :=
  rows.Pairwise fun a b => before (key b) (key a) = false

/-- `after` is `rows` sorted, rows with equivalent keys staying in the order they were in. -/
structure StableSort {α κ : Type} (key : α → κ) (before : κ → κ → Bool) (rows after : List α) :
    Prop where
  perm : after.Perm rows
  ordered : Ordered key before after
  stable : ∀ k, after.filter (fun a => !before (key a) k && !before k (key a)) =
    rows.filter (fun a => !before (key a) k && !before k (key a))

/-- The order turned round. -/
def flipped {κ : Type} (before : κ → κ → Bool) (a b : κ) : Bool := before b a

end Oclint.Spec
