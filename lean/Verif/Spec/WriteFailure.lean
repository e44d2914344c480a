import Verif.Model.WriteFailure
import Verif.Spec.Console

/-!
# Specification of writing to a device that is full
-/

namespace Oclint.Spec
open Oclint

/-- What is left of a text on a device. -/
def landed (room : Option Nat) (s : Str) : Str :=
  match room with
  | none => s
  | some n => s.take n

/-- There is room for a text. -/
def Enough (room : Option Nat) (s : Str) : Prop := ∀ n, room = some n → s.length ≤ n

/-- The devices hold what is left of everything that was written. -/
structure Holds (room : Room) (k : Console) (d : Devices) : Prop where
  screen : d.cout.arrived = landed (room none) k.out
  err : d.err = k.err
  log : d.log = k.log
  files : d.files.map (fun f => (f.1, f.2.arrived)) =
    k.files.map fun f => (f.1, landed (room (some f.1)) f.2)

/-- Everything that was written is there. -/
def Complete (k : Console) (d : Devices) : Prop :=
  d.cout.arrived = k.out ∧ d.files.map (fun f => (f.1, f.2.arrived)) = k.files

end Oclint.Spec
