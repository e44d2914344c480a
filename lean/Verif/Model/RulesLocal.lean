import Verif.Model.RulesControl
import Verif.Model.Thresholds

/-!
# Rules about single statements of a block, parentheses and parameters
-/

namespace Oclint

/-! ## Useless parentheses (`oclint-rules/rules/redundant/UselessParenthesesRule.cpp`) -/

/-- `UselessParenthesesRule.cpp:11-17`, `addParenExprToViolation`. -/
def addParenExprToViolation (e : Option Stmt) : List Stmt :=
  match e with
  | some (.paren x) => [.paren x]
  | _ => []

/-- `UselessParenthesesRule.cpp:64-83`, `VisitIfStmt`, `VisitReturnStmt`, `VisitVarDecl`.  Only
variables declared in statements are in the tree; parameters and globals are not. -/
def uselessParensVisit (s : Stmt) : List Stmt :=
  match s with
  | .ifS _ cond _ _ => addParenExprToViolation (some cond)
  | .returnS value => addParenExprToViolation value
  | .varD _ init => addParenExprToViolation init
  | _ => []

/-! ## Redundant local variable (`oclint-rules/rules/redundant/RedundantLocalVariableRule.cpp`) -/

/-- `RedundantLocalVariableRule.cpp:11-31`, `extractReturnDeclRef`; `last` is
`*(body_end() - 1)`. -/
def extractReturnDeclRef (last : Stmt) : Option DeclId :=
  match last with
  | .returnS (some (.cast .implicit _ (.declRef d))) => some d
  | _ => none

/-- `RedundantLocalVariableRule.cpp:33-42`, `extractNamedDecl`; `lastSecond` is
`*(body_end() - 2)`.  The result is the declaration with its name. -/
def extractNamedDecl (lastSecond : Stmt) : Option (Stmt × Str) :=
  match lastSecond with
  | .declS [.varD d i] => some (.varD d i, d.name)
  | .declS [.otherD (some d)] => some (.otherD (some d), d.name)
  | _ => none

/-- `RedundantLocalVariableRule.cpp:86-99`, `VisitCompoundStmt`.  `getName()` asserts that the name
is an identifier, which the names here are. -/
def redundantLocalVisit (s : Stmt) : List Stmt :=
  match s with
  | .compound body =>
    match body.reverse with
    | last :: lastSecond :: _ =>
      match extractReturnDeclRef last, extractNamedDecl lastSecond with
      | some ret, some (decl, name) => if ret.name = name then [decl] else []
      | _, _ => []
    | _ => []
  | _ => []

/-! ## Prefer early exit (`oclint-rules/rules/convention/PreferEarlyExitRule.cpp`)

The tree has no source locations; `range` gives the first and the last line of a statement. -/

/-- `PreferEarlyExitRule.cpp:15-30`, `isLongIfWithoutElse`; the statement may be missing. -/
def isLongIfWithoutElse (range : Stmt → Nat × Nat) (threshold : Int) (s : Option Stmt) : Bool :=
  match s with
  | some (.ifS p c t els) =>
    if els.isSome then false
    else
      let r := range (.ifS p c t els)
      decide (getLineCount r.1 r.2 > threshold)
  | _ => false

/-- `PreferEarlyExitRule.cpp:32-38`, `addViolationIfStmtIsLongIf`. -/
def addViolationIfStmtIsLongIf (range : Stmt → Nat × Nat) (threshold : Int) (s : Option Stmt) :
    List Stmt :=
  if isLongIfWithoutElse range threshold s then s.toList else []

/-- `PreferEarlyExitRule.cpp:40-47`, `getLastStatement`; `body_back()` of an empty block is
null. -/
def getLastStatement (s : Stmt) : Option Stmt :=
  match s with
  | .compound body => body.getLast?
  | s => some s

/-- `PreferEarlyExitRule.cpp:49-59`, `isFlowOfControlInterrupt`. -/
def isFlowOfControlInterrupt (s : Stmt) : Bool :=
  match s with
  | .breakS | .continueS | .gotoS _ | .indirectGoto _ | .returnS _ => true
  | _ => false

/-- `PreferEarlyExitRule.cpp:61-65`, `VisitLoopBody`. -/
def visitLoopBody (range : Stmt → Nat × Nat) (threshold : Int) (body : Stmt) : List Stmt :=
  addViolationIfStmtIsLongIf range threshold (getLastStatement body)

/-- `PreferEarlyExitRule.cpp:150-179`, `VisitCompoundStmt`, `VisitForStmt`, `VisitWhileStmt`,
`VisitDoStmt`. -/
def earlyExitVisit (range : Stmt → Nat × Nat) (threshold : Int) (s : Stmt) : List Stmt :=
  match s with
  | .compound body =>
    match body.reverse with
    | last :: lastSecond :: _ =>
      if isFlowOfControlInterrupt last then
        addViolationIfStmtIsLongIf range threshold (some lastSecond)
      else []
    | _ => []
  | .forS _ _ _ body => visitLoopBody range threshold body
  | .whileS _ body => visitLoopBody range threshold body
  | .doS body _ => visitLoopBody range threshold body
  | _ => []

/-- `PreferEarlyExitRule.cpp:140-143`, `setUp`, and the traversal. -/
def earlyExitRule (cfg : Configurations) (range : Stmt → Nat × Nat) (root : Stmt) :
    Outcome (List Stmt) := do
  let (threshold, _) ← cfg.intForKey "MAXIMUM_IF_LENGTH".toList 15
  pure (reportOver (earlyExitVisit range threshold) root)

/-! ## Parameter reassignment (`oclint-rules/rules/convention/ParameterReassignmentRule.cpp`) -/

/-- A function or Objective-C method: its parameters and the statements in it (body, default
arguments, initialisers of a constructor). -/
structure ParamScope where
  params : List DeclId
  roots : List Stmt

/-- `ParameterReassignmentRule.cpp:25-41`, `VisitBinaryOperator`: is the operator kept? -/
def assignsNamed (names : List Str) (s : Stmt) : Bool :=
  match s with
  | .binary op (.declRef d) _ => decide (op = .assign) && names.any fun name => d.name == name
  | _ => false

/-- `ParameterReassignmentRule.cpp:17-23`, `analyze`. -/
def analyzeAssignments (roots : List Stmt) (names : List Str) : List Stmt :=
  (roots.flatMap Stmt.nodes).filter (assignsNamed names)

/-- `ParameterReassignmentRule.cpp:44-56`, `locateParamNames`. -/
def locateParamNames (roots : List Stmt) (names : List Str) : List Stmt :=
  if !names.isEmpty then analyzeAssignments roots names else []

/-- `ParameterReassignmentRule.cpp:101-132`, `VisitFunctionDecl` and `VisitObjCMethodDecl`, which
differ in how the parameters are asked for. -/
def parameterReassignment (f : ParamScope) : List Stmt :=
  locateParamNames f.roots ((f.params.map (·.name)).filter fun name => name ≠ [])

end Oclint
