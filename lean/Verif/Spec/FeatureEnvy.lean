import Verif.Model.FeatureEnvy

/-! # What feature envy means -/

namespace Oclint.Spec

/-- `Targets use c`: the expression uses something of the class `c`. -/
inductive Targets : ObjCUse → Str → Prop where
  | instance {c} : Targets (.message false (.instance (some c))) c
  | cls {c} : Targets (.message false (.cls c)) c
  | ivar {c} : Targets (.ivar (some c)) c
  | setter {c g} : Targets (.property true (.explicit (some (.interface (some c))) g)) c
  | getter {c s} : Targets (.property false (.explicit s (some (.interface (some c))))) c
  | setMethod {c g} : Targets (.property true (.implicit (some (.interface (some c))) g)) c
  | getMethod {c s} : Targets (.property false (.implicit s (some (.interface (some c))))) c

/-- `UsesOf c uses n`: there are `n` uses of the class among the expressions. -/
inductive UsesOf (c : Str) : List ObjCUse → Nat → Prop where
  | nil : UsesOf c [] 0
  | hit {u us n} : Targets u c → UsesOf c us n → UsesOf c (u :: us) (n + 1)
  | miss {u us n} : ¬ Targets u c → UsesOf c us n → UsesOf c (u :: us) n

end Oclint.Spec
