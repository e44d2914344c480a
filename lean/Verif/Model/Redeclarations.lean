import Verif.Model.Thresholds

/-!
# Functions and classes with several declarations

The size rules are called for every declaration in the main file, and ask it for its body or its
instance variables.  Clang's `FunctionDecl::hasBody()` and `getBody()` answer for all declarations of
the function, and `ObjCInterfaceDecl::ivar_size()` for the definition of the class, whereas
`RecursiveASTVisitor` goes into the body only below the definition.
-/

namespace Oclint

/-- A body with its presumed first and last line. -/
structure FunctionBody where
  stmt : Stmt
  startLine : Nat
  endLine : Nat

/-- What the declarations of a function share: the number of parameters, whether it is a
`CXXMethodDecl`, and the body, wherever it is. -/
structure FunctionDecls where
  params : Nat
  cxxMethod : Bool
  body : Option FunctionBody

/-- One declaration of a function: its identity, the expressions below it other than the body
(default arguments), whether its lexical context is a `CXXRecordDecl`, and
`isThisDeclarationADefinition()`. -/
structure Redecl where
  id : Nat
  arguments : List Stmt
  inRecord : Bool
  isDefinition : Bool

/-- What `applyDecl` of the size rules (`CyclomaticComplexityRule.cpp:20-32`,
`NPathComplexityRule.cpp:20-38`, `NcssMethodCountRule.cpp:14-24`, `LongMethodRule.cpp:14-29`,
`TooManyParametersRule.cpp:15-25`) gets to see of a declaration. -/
def declSeen (f : FunctionDecls) (d : Redecl) : Construct :=
  .method {
    parts := d.arguments ++ if d.isDefinition then (f.body.map (·.stmt)).toList else []
    body := f.body.map (·.stmt)
    params := f.params
    startLine := (f.body.map (·.startLine)).getD 0
    endLine := (f.body.map (·.endLine)).getD 0
    cxxMethod := f.cxxMethod
    inRecord := d.inRecord }

/-- One declaration of an Objective-C class, `@class` or `@interface`, with its lines. -/
structure InterfaceRedecl where
  id : Nat
  startLine : Nat
  endLine : Nat

/-- What `TooManyFieldsRule.cpp:77-87` and `LongClassRule.cpp:84-89` get to see of a declaration of a
class with the given number of instance variables.  Neither looks at the number of methods. -/
def interfaceSeen (ivars : Nat) (d : InterfaceRedecl) : Construct :=
  .cls ⟨.objcInterface, d.startLine, d.endLine, ivars, 0⟩

/-- The visits of the declarations one after another, as in `visitAll`: the declarations reported. -/
def visitEach {α : Type} (visit : α → Outcome (Option Str)) : List α → Outcome (List (α × Str))
  | [] => pure []
  | d :: ds => do
    let o ← visit d
    let rest ← visitEach visit ds
    pure (o.toList.map (fun text => (d, text)) ++ rest)

/-- A whole application of a rule to a file with these declarations. -/
def redeclRule {α : Type} (cfg : Configurations) (rule : MetricRule) (seen : α → Construct)
    (ds : List α) : Outcome (List (α × Str)) := do
  let stored ← metricSetUp cfg rule
  visitEach (fun d => metricVisit cfg stored rule (seen d)) ds

end Oclint
