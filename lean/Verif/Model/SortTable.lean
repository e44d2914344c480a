import Verif.Model.Basic

/-!
# The table sorting script of the HTML report

Models the JavaScript text in `oclint-reporters/reporters/HTMLReporter.cpp:147-176`.  A row is
represented by the text of its cells, `rows` are the rows below the heading (the heading is
`rows[0]` of the script, all others are in the same `tbody`).  `innerHTML` is the text of the cell;
`lower` is `toLowerCase` and `lt` is `<` on strings; both are parameters, `lt` is assumed to be a
strict total order where needed.  A cell that does not exist is a `TypeError` (`throws`).
-/

namespace Oclint

/-- The variable `dir` of the script. -/
inductive SortDir where
  | asc | desc
  deriving Repr, DecidableEq

/-- The cells of a table row. -/
abbrev Row := List Str

section
variable (lower : Str → Str) (lt : Str → Str → Bool)

/-- `HTMLReporter.cpp:157-160`: the test of two adjacent rows. -/
def outOfOrder (n : Nat) (dir : SortDir) (a b : Row) : Outcome Bool :=
  match a[n]?, b[n]? with
  | some x, some y =>
    .ok ((decide (dir = .asc) && lt (lower y) (lower x)) ||
      (decide (dir = .desc) && lt (lower x) (lower y)))
  | _, _ => .throws "TypeError".toList

/-- `HTMLReporter.cpp:155-168`: the `for` loop with `break` and the `insertBefore`; `none` when no
adjacent pair has to be switched, otherwise the rows after the switch. -/
def sortPass (n : Nat) (dir : SortDir) : List Row → Outcome (Option (List Row))
  | a :: b :: rest => do
    if ← outOfOrder lower lt n dir a b then pure (some (b :: a :: rest))
    else
      let r ← sortPass n dir (b :: rest)
      match r with
      | none => pure none
      | some rows => pure (some (a :: rows))
  | _ => .ok none

/-- `HTMLReporter.cpp:152-175`: the `while (switching)` loop, at most `fuel` rounds; `none` when it
is still running then. -/
def sortLoop (n : Nat) : Nat → SortDir → Nat → List Row → Outcome (Option (List Row))
  | 0, _, _, _ => .ok none
  | fuel + 1, dir, switchcount, rows => do
    match ← sortPass lower lt n dir rows with
    | some rows' => sortLoop n fuel dir (switchcount + 1) rows'
    | none =>
      if switchcount = 0 ∧ dir = .asc then sortLoop n fuel .desc switchcount rows
      else pure (some rows)

/-- `HTMLReporter.cpp:147-176`, `sortTable(n)`. -/
def sortTable (n fuel : Nat) (rows : List Row) : Outcome (Option (List Row)) :=
  sortLoop lower lt n fuel .asc 0 rows

end

end Oclint
