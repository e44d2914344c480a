import Verif.Model.Driver
import Verif.Model.Text

/-!
# The words of a compile command

Models `oclint-driver/lib/Driver.cpp:265-273` with Clang's two argument adjusters
(`clang/lib/Tooling/ArgumentsAdjusters.cpp`), which are not part of the repository and are modelled
from their documented behaviour.  Versions of Clang differ in where `getInsertArgumentAdjuster` puts
a word at the end of a command that has the word `--`; both are modelled.
-/

namespace Oclint

/-- `getClangStripOutputAdjuster`: the loop over the words, with the words kept so far.  `++i` after
`-o` passes over the next word. -/
def stripOutputLoop (args : List Str) (i : Nat) (adjusted : List Str) : List Str :=
  match _h : args[i]? with
  | none => adjusted
  | some arg =>
    let adjusted := if (chars! "-o").isPrefixOf arg then adjusted else adjusted ++ [arg]
    if arg = chars! "-o" then stripOutputLoop args (i + 2) adjusted
    else stripOutputLoop args (i + 1) adjusted
termination_by args.length - i
decreasing_by
  all_goals
    have := (List.getElem?_eq_some_iff.1 _h).1
    omega

/-- `getClangStripOutputAdjuster`. -/
def stripOutput (args : List Str) : List Str := stripOutputLoop args 0 []

/-- `getInsertArgumentAdjuster` with `ArgumentInsertPosition::END`; `dashes` says whether this version
of Clang looks for `--`. -/
def insertAtEnd (dashes : Bool) (extra : Str) (args : List Str) : List Str :=
  let i := if dashes then args.findIdx (fun w => decide (w = chars! "--")) else args.length
  args.take i ++ extra :: args.drop i

/-- `getClangSyntaxOnlyAdjuster`: one turn of the loop on `AdjustedArgs` and `HasSyntaxOnly`. -/
def syntaxOnlyStep (st : List Str × Bool) (arg : Str) : List Str × Bool :=
  if (chars! "-save-temps").isPrefixOf arg || (chars! "--save-temps").isPrefixOf arg then st
  else
    let adjusted :=
      if !(chars! "-fcolor-diagnostics").isPrefixOf arg &&
          !(chars! "-fdiagnostics-color").isPrefixOf arg then st.1 ++ [arg]
      else if st.1.getLast? = some (chars! "-Xclang") then st.1.dropLast
      else st.1
    (adjusted, st.2 || decide (arg = chars! "-fsyntax-only"))

/-- `getClangSyntaxOnlyAdjuster`. -/
def syntaxOnly (dashes : Bool) (args : List Str) : List Str :=
  let st := args.foldl syntaxOnlyStep ([], false)
  if !st.2 then insertAtEnd dashes (chars! "-fsyntax-only") st.1 else st.1

/-- `Driver.cpp:265-273`, `adjustArguments`.  `combineAdjusters` applies the first adjuster first. -/
def adjustArguments (dashes : Bool) (commandLine : List Str) (_filename : Str) : List Str :=
  syntaxOnly dashes (stripOutput commandLine)

end Oclint
