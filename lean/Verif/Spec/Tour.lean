import Verif.Model.RuleBase
import Verif.Spec.Metrics

/-!
What it means that reports come in the order of the source and that nothing is reported twice.
-/

namespace Oclint.Spec

/-- Going over trees in the order of the source, a statement before what is below it: where `R s x`
says that `x` is what `s` calls for, `x` is written down, once, on arrival at `s`; where `s` calls for
nothing, nothing is. -/
inductive Tour (R : Stmt → Stmt → Prop) : List Stmt → List Stmt → Prop
  | nil : Tour R [] []
  | report {s rest x a b} : R s x → (∀ y, R s y → y = x) → Tour R s.kids a → Tour R rest b →
      Tour R (s :: rest) (x :: (a ++ b))
  | silent {s rest a b} : (∀ x, ¬ R s x) → Tour R s.kids a → Tour R rest b →
      Tour R (s :: rest) (a ++ b)

/-- The same with any number of reports for a statement: `G s here` says what is written down on
arrival at `s`. -/
inductive TourMany (G : Stmt → List Stmt → Prop) : List Stmt → List Stmt → Prop
  | nil : TourMany G [] []
  | cons {s rest here a b} : G s here → TourMany G s.kids a → TourMany G rest b →
      TourMany G (s :: rest) (here ++ a ++ b)

/-- Going through the declarations of a file: those with `P` are looked at, in order. -/
inductive Through (P : TopDecl → Prop) (G : TopDecl → List Stmt → Prop) : List TopDecl → List Stmt → Prop
  | nil : Through P G [] []
  | look {d rest a b} : P d → G d a → Through P G rest b → Through P G (d :: rest) (a ++ b)
  | skip {d rest b} : ¬ P d → Through P G rest b → Through P G (d :: rest) b

end Oclint.Spec
