import Verif.Model.Ast
import Verif.Model.Thresholds

/-!
# Short variable names

Models `oclint-rules/rules/naming/ShortVariableNameRule.cpp`.  The rule is a visitor with a stack
of variable declarations that are not to be reported; the stack is a member of the rule object, so
it survives from one translation unit to the next.
-/

namespace Oclint

/-- `dyn_cast_or_null<VarDecl>` followed by `ShortVariableNameRule.cpp:25-31`, `handleVarDecl`. -/
def handleVarDecl (stack : List DeclId) : Stmt → List DeclId
  | .varD d _ => d :: stack
  | _ => stack

/-- `ShortVariableNameRule.cpp:33-52`, `handleDeclStmt`: the declarations are pushed from the last
to the first. -/
def handleDeclStmt (stack : List DeclId) : Option Stmt → List DeclId
  | some (.declS [d]) => handleVarDecl stack d
  | some (.declS ds) => ds.reverse.foldl handleVarDecl stack
  | _ => stack

/-- The loop variable of a range-based `for` (`getLoopVariable()`): the declaration of its
declaration statement. -/
def handleLoopVariable (stack : List DeclId) : Stmt → List DeclId
  | .declS (d :: _) => handleVarDecl stack d
  | _ => stack

/-- `ShortVariableNameRule.cpp:122-124`, the description. -/
def shortDescription (threshold : Int) (d : DeclId) : Str :=
  "Length of variable name `".toList ++ d.name ++ "` is ".toList
      ++ toStringInt (toInt32 d.name.length) ++ ", which is shorter than the threshold of ".toList
      ++ toStringInt threshold

/-- `ShortVariableNameRule.cpp:105-107`: names that are not examined further. -/
def nameAcceptable (threshold : Int) (d : DeclId) : Bool :=
  decide (toInt32 d.name.length ≤ 0) || decide (toInt32 d.name.length ≥ threshold)

/-- `ShortVariableNameRule.cpp:102-128`, `VisitVarDecl`; declarations are compared as pointers. -/
def shortVisitVarDecl (threshold : Int) (stack : List DeclId) (d : DeclId) :
    List DeclId × Option (DeclId × Str) :=
  if nameAcceptable threshold d then (stack, none)
  else
    match stack with
    | [] => ([], some (d, shortDescription threshold d))
    | top :: rest => 
      if d.id = top.id then (rest, none) else (rest, some (d, shortDescription threshold d))

/-- The `Visit...` methods of `ShortVariableNameRule.cpp:102-161` on one node. -/
def shortVisit (threshold : Int) (stack : List DeclId) : Stmt → List DeclId × Option (DeclId × Str)
  | .varD d _ => shortVisitVarDecl threshold stack d
  | .forS init _ _ _ => (handleDeclStmt [] init, none)
  | .forRange _ v _ => (handleLoopVariable [] v, none)
  | .forIn elem _ _ => (handleDeclStmt [] (some elem), none)
  | .cxxCatch (some p) _ => (handleVarDecl [] p, none)
  | .cxxCatch none _ => ([], none)
  | _ => (stack, none)

/-- The visits one after another: the stack left over and the reports. -/
def shortRun (threshold : Int) : List DeclId → List Stmt → List DeclId × List (DeclId × Str)
  | stack, [] => (stack, [])
  | stack, s :: rest =>
    ((shortRun threshold (shortVisit threshold stack s).1 rest).1,
      (shortVisit threshold stack s).2.toList ++
        (shortRun threshold (shortVisit threshold stack s).1 rest).2)

/-- The rule on a translation unit, given as the list of its outermost declarations (parameters
and variables as `varD`) and function bodies in traversal order.  The threshold is read at each
variable; reading has no effect (C07), so it is read once here. -/
def shortNameRule (cfg : Configurations) (stack : List DeclId) (roots : List Stmt) :
    Outcome (List DeclId × List (DeclId × Str)) := do
  let (threshold, _) ← cfg.intForKey "SHORT_VARIABLE_NAME".toList 3
  pure (shortRun threshold stack (Stmt.nodesL roots))

end Oclint
