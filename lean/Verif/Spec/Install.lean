import Verif.Model.Options

/-!
# Specification of places in a file tree

A place is the list of names from the root.  Directories are taken not to be symbolic links, so that
`..` leads to the directory that a name was reached through.
-/

namespace Oclint.Spec
open Oclint

/-- The texts between slashes. -/
def pieces : Str → List Str
  | [] => [[]]
  | c :: cs =>
    if c = '/' then [] :: pieces cs
    else
      match pieces cs with
      | [] => [[c]]
      | p :: ps => (c :: p) :: ps

/-- Walking from a place along the texts between slashes. -/
def walk : List Str → List Str → List Str
  | here, [] => here
  | here, s :: ss =>
    if s = [] ∨ s = ['.'] then walk here ss
    else if s = ['.', '.'] then walk here.dropLast ss
    else walk (here ++ [s]) ss

/-- The place an absolute path leads to. -/
def place (p : Str) : List Str := walk [] (pieces p)

/-- The place a path leads to from the working directory. -/
def reach (cwd p : Str) : List Str :=
  if p.head? = some '/' then place p else walk (place cwd) (pieces p)

/-- A name of a file: not empty, no slash, neither `.` nor `..`. -/
structure FileName (name : Str) : Prop where
  nonempty : name ≠ []
  noSlash : '/' ∉ name
  notDot : name ≠ ['.']
  notDots : name ≠ ['.', '.']

/-- The place of the program that the system starts for a command.  A command with a slash is a path.
Any other is looked for in the directories of `PATH`; the first that has such a program is taken.  An
empty entry is the working directory. -/
inductive Starts (runs : List Str → Prop) (cwd : Str) (entries : List Str) (command : Str) :
    List Str → Prop where
  | named : '/' ∈ command → Starts runs cwd entries command (reach cwd command)
  | found (before after : List Str) (entry : Str) : '/' ∉ command →
      entries = before ++ entry :: after →
      (∀ b ∈ before, ¬ runs (reach cwd b ++ [command])) → runs (reach cwd entry ++ [command]) →
      Starts runs cwd entries command (reach cwd entry ++ [command])

/-- The last text between slashes of the command. -/
def commandName (command : Str) : Str := (pieces command).getLast?.getD []

end Oclint.Spec
