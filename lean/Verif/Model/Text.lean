import Verif.Model.Basic

/-!
# Text helpers

Models `oclint-rules/include/oclint/util/StdUtil.h` and `oclint-rules/lib/util/StdUtil.cpp`.
-/

namespace Oclint

/-- A text given by the list of its characters: `chars! "ab"` is `['a', 'b']`. -/
macro "chars! " s:str : term => do
  let cs := (s.getString.toList.map Lean.Syntax.mkCharLit).toArray
  `(([$cs,*] : List Char))

/-- Digits of a number in front of `acc`, as `operator<<` prints them. -/
def showNat (n : Nat) (acc : Str) : Str :=
  if n < 10 then Char.ofNat (48 + n) :: acc
  else showNat (n / 10) (Char.ofNat (48 + n % 10) :: acc)

/-- `oclint-rules/include/oclint/util/StdUtil.h`, `toString<int>`: an `ostringstream` in the C locale. -/
def toStringInt (z : Int) : Str :=
  if z < 0 then '-' :: showNat z.natAbs [] else showNat z.natAbs []

/-- `StdUtil.cpp:9-12`, `removeUnderscores`. -/
def removeUnderscores (s : Str) : Str := s.filter fun c => !decide (c = '_')

/-- `StdUtil.cpp:14-19`, `capitalizeFirstLetter`. -/
def capitalizeFirstLetter : Str → Str
  | [] => []
  | c :: cs => c.toUpper :: cs

end Oclint
