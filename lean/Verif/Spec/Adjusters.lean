import Verif.Model.Driver
import Verif.Model.Text

/-!
# Specification of the words of a compile command that reach Clang
-/

namespace Oclint.Spec
open Oclint

/-- A word that asks for output: it begins with `-o`. -/
def OutputWord (w : Str) : Prop := chars! "-o" <+: w

/-- A word about temporary files. -/
def TempsWord (w : Str) : Prop := chars! "-save-temps" <+: w ∨ chars! "--save-temps" <+: w

/-- A word about colours. -/
def ColourWord (w : Str) : Prop := chars! "-fcolor-diagnostics" <+: w ∨ chars! "-fdiagnostics-color" <+: w

/-- `vs` are the words `ws` without those about the output; `-o` takes the next word with it. -/
inductive WithoutOutput : List Str → List Str → Prop where
  | nil : WithoutOutput [] []
  | keep {w : Str} {ws vs : List Str} : ¬ OutputWord w → WithoutOutput ws vs →
      WithoutOutput (w :: ws) (w :: vs)
  | joined {w : Str} {ws vs : List Str} : OutputWord w → w ≠ chars! "-o" → WithoutOutput ws vs →
      WithoutOutput (w :: ws) vs
  | separate {file : Str} {ws vs : List Str} : WithoutOutput ws vs →
      WithoutOutput (chars! "-o" :: file :: ws) vs
  | dangling : WithoutOutput [chars! "-o"] []

/-- `vs` are the words `ws` without those about temporary files and colours; a word about colours takes
the `-Xclang` with it that is left before it. -/
inductive WithoutColours : List Str → List Str → Prop where
  | nil : WithoutColours [] []
  | keep {w : Str} {ws vs : List Str} : WithoutColours ws vs → ¬ TempsWord w → ¬ ColourWord w →
      WithoutColours (ws ++ [w]) (vs ++ [w])
  | temps {w : Str} {ws vs : List Str} : WithoutColours ws vs → TempsWord w →
      WithoutColours (ws ++ [w]) vs
  | passedOn {w : Str} {ws vs : List Str} : WithoutColours ws (vs ++ [chars! "-Xclang"]) →
      ColourWord w → WithoutColours (ws ++ [w]) vs
  | colour {w : Str} {ws vs : List Str} : WithoutColours ws vs → ColourWord w →
      vs.getLast? ≠ some (chars! "-Xclang") → WithoutColours (ws ++ [w]) vs

/-- The words of a command that are kept. -/
def KeptWords (ws vs : List Str) : Prop := ∃ mid, WithoutOutput ws mid ∧ WithoutColours mid vs

/-- The words of a command with `-fsyntax-only`, which is added if it is missing: at the end, or, if
`dashes`, before the first `--`. -/
inductive Adjusted (dashes : Bool) (ws : List Str) : List Str → Prop where
  | given {kept : List Str} : KeptWords ws kept → chars! "-fsyntax-only" ∈ kept → Adjusted dashes ws kept
  | added {before after : List Str} : KeptWords ws (before ++ after) →
      chars! "-fsyntax-only" ∉ before ++ after →
      (after = [] ∧ (dashes = true → chars! "--" ∉ before) ∨
        dashes = true ∧ chars! "--" ∉ before ∧ after.head? = some (chars! "--")) →
      Adjusted dashes ws (before ++ chars! "-fsyntax-only" :: after)

/-- A word is given where Clang reads options: no `--` comes before. -/
def ReadAsOption (argv : List Str) (w : Str) : Prop :=
  ∃ before after, argv = before ++ w :: after ∧ chars! "--" ∉ before

end Oclint.Spec
