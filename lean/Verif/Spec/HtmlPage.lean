import Verif.Model.Basic

/-!
# Specification of the head of an HTML report
-/

namespace Oclint.Spec
open Oclint

/-- The parts of a text between the occurrences of a character; the last part is what follows the
last one. -/
def partsAt (sep : Char) : Str → List Str
  | [] => [[]]
  | c :: s =>
    if c = sep then [] :: partsAt sep s
    else match partsAt sep s with
      | [] => [[c]]
      | p :: ps => (c :: p) :: ps

/-- Without the blanks on both sides. -/
def trimmed (s : Str) : Str :=
  (((s.dropWhile (· == ' ')).reverse).dropWhile (· == ' ')).reverse

/-- A rule of a style sheet: selectors and declarations. -/
abbrev StyleRule := List Str × List (Str × Str)

/-- `name: value`. -/
def readDeclaration (s : Str) : Option (Str × Str) :=
  match partsAt ':' s with
  | [a, b] => some (trimmed a, trimmed b)
  | _ => none

/-- `a, b { name: value; … }` without the closing brace; every declaration ends with a semicolon. -/
def readStyleRule (s : Str) : Option StyleRule :=
  match partsAt '{' s with
  | [sel, body] =>
    let ds := partsAt ';' body
    if trimmed (ds.getLastD []) = [] then
      (ds.dropLast.mapM readDeclaration).map fun d => ((partsAt ',' sel).map trimmed, d)
    else none
  | _ => none

/-- The rules of a style sheet. -/
def readStyle (s : Str) : Option (List StyleRule) :=
  let rules := partsAt '}' s
  if trimmed (rules.getLastD []) = [] then rules.dropLast.mapM readStyleRule else none

/-- The value a style sheet gives to a property of a selector: the last rule that mentions both
wins. -/
def styleOf (rules : List StyleRule) (selector property : Str) : Option Str :=
  ((rules.filter fun r => r.1.contains selector).flatMap fun r =>
    (r.2.filter fun d => d.1 == property).map (·.2)).getLast?

/-- How many brackets are open after a text, with `none` if one closes that is not open.  Texts in
double quotes do not count. -/
def openBrackets : Bool → List Char → Str → Option (List Char)
  | quoted, st, [] => if quoted then none else some st
  | quoted, st, c :: s =>
    if c = '"' then openBrackets (!quoted) st s
    else if quoted then openBrackets quoted st s
    else if c = '{' ∨ c = '(' ∨ c = '[' then openBrackets quoted (c :: st) s
    else if c = '}' ∨ c = ')' ∨ c = ']' then
      match st with
      | o :: st => if (o, c) ∈ [('{', '}'), ('(', ')'), ('[', ']')] then openBrackets quoted st s
        else none
      | [] => none
    else openBrackets quoted st s

/-- Each class of a cell of the report, with the colour of its background. -/
def cellColours : List (Str × Str) :=
  [("priority1".toList, "#FFCC96".toList), ("priority2".toList, "#FFFFD5".toList),
    ("priority3".toList, "#75B3DA".toList), ("cmplr-error".toList, "#ED686A".toList),
    ("cmplr-warning".toList, "#ED686A".toList), ("checker-bug".toList, "#75B3DA".toList)]

end Oclint.Spec
