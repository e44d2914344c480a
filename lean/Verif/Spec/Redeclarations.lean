import Verif.Model.Redeclarations
import Verif.Spec.Thresholds

/-!
# What size rules are supposed to say about a function with several declarations
-/

namespace Oclint.Spec
open Oclint

/-- `BodyMeasure r f m`: the value the rule computes for the function `f`, from what its declarations
share.  A function without a body has no statements. -/
inductive BodyMeasure : MetricRule → FunctionDecls → Int → Prop where
  | npath {f : FunctionDecls} {b : List Stmt} {l l' m} : f.body = some ⟨.compound b, l, l'⟩ →
      npathComplexity (.compound b) = .ok m → BodyMeasure .npath f m
  | ncss {f : FunctionDecls} {b m} : f.body = some b → ncssCount (some b.stmt) = .ok m →
      BodyMeasure .ncss f m
  | longMethod {f : FunctionDecls} {b} {n : Nat} : f.body = some b → n < 2147483648 →
      b.endLine + 1 = b.startLine + n → BodyMeasure .longMethod f n
  | parameters {f : FunctionDecls} {b} : f.body = some b → f.params < 2147483648 →
      BodyMeasure .parameters f f.params

/-- The text of a report about a function. -/
def functionMessage (rule : MetricRule) (value limit : Int) : Str :=
  match rule with
  | .cyclomatic => "Cyclomatic Complexity Number ".toList ++ decimalInt value ++
      " exceeds limit of ".toList ++ decimalInt limit
  | .npath => "NPath Complexity Number ".toList ++ decimalInt value ++
      " exceeds limit of ".toList ++ decimalInt limit
  | .ncss => "Method of ".toList ++ decimalInt value ++ " non-commenting source statements".toList ++
      " exceeds limit of ".toList ++ decimalInt limit
  | .longMethod => "Method with ".toList ++ decimalInt value ++ " lines".toList ++
      " exceeds limit of ".toList ++ decimalInt limit
  | .parameters => "Method with ".toList ++ decimalInt value ++ " parameters".toList ++
      " exceeds limit of ".toList ++ decimalInt limit
  | _ => []

/-- A declaration for which the rule is silent whatever the body is: for the length of methods, a
declaration of a C++ method inside the class. -/
def Exempt (r : MetricRule) (f : FunctionDecls) (d : Redecl) : Prop :=
  r = .longMethod ∧ f.cxxMethod = true ∧ d.inRecord = true

/-- `ReportedOnce ds rs`: at most one declaration of the function is reported, and only its
definition. -/
def ReportedOnce (rs : List (Redecl × Str)) : Prop :=
  rs.length ≤ 1 ∧ ∀ x ∈ rs, x.1.isDefinition = true

end Oclint.Spec
