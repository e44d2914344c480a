import Verif.Model.Ast

/-!
# Rules about control flow

A visitor rule is modelled by what its `Visit...` method reports for one node; `reportOver` is the
traversal, which calls the method for every node in order
(`oclint-rules/include/oclint/AbstractASTVisitorRule.h:22-35` with
`clang::RecursiveASTVisitor`).  What is reported is the node handed to `addViolation`.
-/

namespace Oclint

/-- All reports of a rule without state, in the order of the traversal. -/
def reportOver (visit : Stmt → List Stmt) (root : Stmt) : List Stmt := root.nodes.flatMap visit

/-! ## Collapsible if statements (`oclint-rules/rules/basic/CollapsibleIfStatementsRule.cpp`) -/

/-- `CollapsibleIfStatementsRule.cpp:11-14`. -/
def compoundContainsOnlyOneIf (body : List Stmt) : Bool :=
  decide (body.length = 1) &&
    match body with
    | .ifS _ _ _ _ :: _ => true
    | _ => false

/-- `CollapsibleIfStatementsRule.cpp:16-32`, `getInnerIfStmt`; the then branch is given. -/
def getInnerIf (thenStmt : Stmt) : Option Stmt :=
  match thenStmt with
  | .ifS p c t e => some (.ifS p c t e)
  | .compound body => if compoundContainsOnlyOneIf body then body.head? else none
  | _ => none

/-- `CollapsibleIfStatementsRule.cpp:34-37`, `checkElseBranch`. -/
def checkElseBranch (outerElse : Option Stmt) (inner : Stmt) : Bool :=
  outerElse.isSome ||
    match inner with
    | .ifS _ _ _ e => e.isSome
    | _ => false

/-- `CollapsibleIfStatementsRule.cpp:86-95`, `VisitIfStmt`. -/
def collapsibleIfVisit (s : Stmt) : List Stmt :=
  match s with
  | .ifS _ _ thn els =>
    match getInnerIf thn with
    | some inner => if !checkElseBranch els inner then [s] else []
    | none => []
  | _ => []

/-! ## For loop should be while loop -/

/-- `oclint-rules/rules/basic/ForLoopShouldBeWhileLoopRule.cpp:54-65`, `VisitForStmt`.  An
expression is never a `NullStmt`, the test is kept. -/
def forShouldBeWhileVisit (s : Stmt) : List Stmt :=
  match s with
  | .forS init (some cond) inc _ =>
    let condIsNullStmt := match cond with | .nullS => true | _ => false
    if !init.isSome && !inc.isSome && !condIsNullStmt then [s] else []
  | _ => []

/-! ## Inverted logic (`oclint-rules/rules/convention/InvertedLogicRule.cpp`) -/

/-- `InvertedLogicRule.cpp:11-17`, `isInvertedLogic`. -/
def isInvertedLogic (cond : Stmt) : Bool :=
  match cond with
  | .binary op _ _ => decide (op = .ne)
  | .unary op _ => decide (op = .lnot)
  | _ => false

/-- `InvertedLogicRule.cpp:69-87`, `VisitIfStmt` and `VisitConditionalOperator`. -/
def invertedLogicVisit (s : Stmt) : List Stmt :=
  match s with
  | .ifS _ cond _ els => if els.isSome && isInvertedLogic cond then [cond] else []
  | .condOp cond _ _ => if isInvertedLogic cond then [cond] else []
  | _ => []

/-! ## Unnecessary else statement (`oclint-rules/rules/redundant/UnnecessaryElseStatementRule.cpp`) -/

mutual
/-- `UnnecessaryElseStatementRule.cpp:25-46`, `areAllBranchesReturn(Stmt *)`. -/
def allBranchesReturn : Stmt → Bool
  | .compound body => allBranchesReturnL body
  | .ifS _ _ t e => allBranchesReturn t && allBranchesReturnO e
  | .returnS _ => true
  | _ => false

/-- `UnnecessaryElseStatementRule.cpp:11-23`, the loop over a compound statement. -/
def allBranchesReturnL : List Stmt → Bool
  | [] => false
  | s :: rest => allBranchesReturn s || allBranchesReturnL rest

/-- `UnnecessaryElseStatementRule.cpp:33`, the test for null. -/
def allBranchesReturnO : Option Stmt → Bool
  | none => false
  | some s => allBranchesReturn s
end

/-- The number of nodes visited before the else branch of an if, counted from the if. -/
def elseOffset (pre : Option Stmt) (cond thn : Stmt) : Nat :=
  1 + (Stmt.nodesO pre).length + cond.nodes.length + thn.nodes.length

/-- `UnnecessaryElseStatementRule.cpp:137-158`: the chain of `else if`s that starts at the node
number `i`: the numbers pushed into `_visitedIfStmt`, the then branches of `ifStmts` and
`lastElseStmt`.  Pointers are modelled by the position of the node in the traversal. -/
def elseChain (i : Nat) : Stmt → List Nat × List Stmt × Option Stmt
  | .ifS pre cond thn (some (.ifS p c t e)) =>
    let r := elseChain (i + elseOffset pre cond thn) (.ifS p c t e)
    (i :: r.1, thn :: r.2.1, r.2.2)
  | .ifS _ _ thn els => ([i], [thn], els)
  | _ => ([], [], none)

/-- `UnnecessaryElseStatementRule.cpp:130-166`, `VisitIfStmt` for every node in turn, from node
number `i` on; `visited` is `_visitedIfStmt`. -/
def unnecessaryElseLoop : Nat → List Nat → List Stmt → List Stmt
  | _, _, [] => []
  | i, visited, s :: rest =>
    match s with
    | .ifS p c t e =>
      if visited.contains i then unnecessaryElseLoop (i + 1) visited rest
      else
        let chain := elseChain i (.ifS p c t e)
        (match chain.2.2 with
          | some last => if chain.2.1.all allBranchesReturn then [last] else []
          | none => []) ++ unnecessaryElseLoop (i + 1) (visited ++ chain.1) rest
    | _ => unnecessaryElseLoop (i + 1) visited rest

/-- All reports of the rule; `setUp` starts with an empty list
(`UnnecessaryElseStatementRule.cpp:125-128`). -/
def unnecessaryElse (root : Stmt) : List Stmt := unnecessaryElseLoop 0 [] root.nodes

/-! ## Redundant if statement (`oclint-rules/rules/redundant/RedundantIfStatementRule.cpp`) -/

mutual
/-- `RedundantIfStatementRule.cpp:12-27`, `extractStmt<ReturnStmt>`: the returned value. -/
def extractReturn : Stmt → Option (Option Stmt)
  | .returnS v => some v
  | .compound body => extractReturnL body
  | _ => none

/-- The single statement of a compound statement. -/
def extractReturnL : List Stmt → Option (Option Stmt)
  | [s] => extractReturn s
  | _ => none
end

mutual
/-- `RedundantIfStatementRule.cpp:12-27`, `extractStmt<BinaryOperator>`. -/
def extractBinary : Stmt → Option (BinOp × Stmt × Stmt)
  | .binary op l r => some (op, l, r)
  | .compound body => extractBinaryL body
  | _ => none

/-- The single statement of a compound statement. -/
def extractBinaryL : List Stmt → Option (BinOp × Stmt × Stmt)
  | [s] => extractBinary s
  | _ => none
end

/-- `RedundantIfStatementRule.cpp:29-35`, `isCIntegerViolated`. -/
def cIntegerViolated (a b : Stmt) : Bool :=
  match a, b with
  | .intLit m, .intLit n => decide (m ≠ 0) != decide (n ≠ 0)
  | _, _ => false

/-- `RedundantIfStatementRule.cpp:37-65`, `isNotEquals` (the three cases exclude each other). -/
def literalsDiffer (a b : Stmt) : Bool :=
  match a, b with
  | .boolLit x, .boolLit y => x != y
  | .objcBoolLit x, .objcBoolLit y => x != y
  | .cast .cstyle _ x, .cast .cstyle _ y => cIntegerViolated x y
  | _, _ => false

/-- `RedundantIfStatementRule.cpp:67-70`, `doesReturnStatementsViolateRule`. -/
def returnsViolate (a b : Option (Option Stmt)) : Bool :=
  match a, b with
  | some (some x), some (some y) => literalsDiffer x y
  | _, _ => false

/-- `RedundantIfStatementRule.cpp:72-75`, `doesBinaryOperatorsViolateRule`. -/
def binariesViolate (a b : Option (BinOp × Stmt × Stmt)) : Bool :=
  match a, b with
  | some (_, _, x), some (_, _, y) => literalsDiffer x y
  | _, _ => false

/-- `RedundantIfStatementRule.cpp:124-137`, `VisitIfStmt`. -/
def redundantIfVisit (s : Stmt) : List Stmt :=
  match s with
  | .ifS _ _ thn els =>
    if returnsViolate (extractReturn thn) (els.bind extractReturn) ||
        binariesViolate (extractBinary thn) (els.bind extractBinary) then [s] else []
  | _ => []

/-! ## Redundant conditional operator
(`oclint-rules/rules/redundant/RedundantConditionalOperatorRule.cpp`) -/

/-- `RedundantConditionalOperatorRule.cpp:12-21`, `extractFromImplicitCastExpr`. -/
def fromImplicitCast (s : Stmt) : Option Stmt :=
  match s with
  | .cast .implicit _ sub => some sub
  | _ => none

/-- `RedundantConditionalOperatorRule.cpp:23-73` and `122-127`, `isNotEquals`. -/
def conditionalNotEquals (t f : Stmt) : Bool :=
  (match t, f with
    | .boolLit x, .boolLit y => x != y
    | _, _ => false) ||
  (match fromImplicitCast t, fromImplicitCast f with
    | some (.objcBoolLit x), some (.objcBoolLit y) => x != y
    | some (.cast .cstyle _ (.intLit m)), some (.cast .cstyle _ (.intLit n)) =>
      decide (m ≠ 0) != decide (n ≠ 0)
    | _, _ => false)

/-- `RedundantConditionalOperatorRule.cpp:30-35`, `49-57`, `75-120` and `129-138`,
`isSameConstant`. -/
def conditionalSameConstant (t f : Stmt) : Bool :=
  (match t, f with
    | .boolLit x, .boolLit y => x == y
    | .intLit x, .intLit y => x == y
    | .floatLit x, .floatLit y => x == y
    | .charLit x, .charLit y => x == y
    | _, _ => false) ||
  (match fromImplicitCast t, fromImplicitCast f with
    | some (.objcBoolLit x), some (.objcBoolLit y) => x == y
    | some (.cast .cstyle _ (.intLit m)), some (.cast .cstyle _ (.intLit n)) =>
      decide (m ≠ 0) == decide (n ≠ 0)
    | some (.strLit x), some (.strLit y) => x == y
    | _, _ => false)

/-- `RedundantConditionalOperatorRule.cpp:140-145`, `isSameVariable`: the same declaration. -/
def conditionalSameVariable (t f : Stmt) : Bool :=
  match fromImplicitCast t, fromImplicitCast f with
  | some (.declRef x), some (.declRef y) => x.id == y.id
  | _, _ => false

/-- `RedundantConditionalOperatorRule.cpp:199-218`, `VisitConditionalOperator`. -/
def redundantConditionalVisit (s : Stmt) : List Stmt :=
  match s with
  | .condOp _ t f =>
    if conditionalNotEquals t f || conditionalSameConstant t f || conditionalSameVariable t f
    then [s] else []
  | _ => []

/-! ## Dead code (`oclint-rules/rules/basic/DeadCodeRule.cpp`) -/

/-- `DeadCodeRule.cpp:14-20`. -/
inductive ExitType where
  | noExit | restartScope | exitScope | fullExit
  deriving DecidableEq, Repr

/-- `DeadCodeRule.cpp:64-76`: an if with two branches. -/
def joinExit (thenExit elseExit : ExitType) : ExitType :=
  if thenExit = elseExit then thenExit
  else if thenExit = .noExit ∨ elseExit = .noExit then .noExit
  else if thenExit = .exitScope ∨ elseExit = .exitScope then .exitScope
  else .fullExit

mutual
/-- `DeadCodeRule.cpp:22-82`, `ExitTypeGetter`.  `VisitGotoStmt` is not called for an
`IndirectGotoStmt`, and an expression statement that throws is only recognised when the throw is
the whole expression. -/
def exitType : Stmt → ExitType
  | .breakS => .exitScope
  | .continueS => .restartScope
  | .returnS _ => .fullExit
  | .gotoS _ => .fullExit
  | .throwE _ => .fullExit
  | .atThrow _ => .fullExit
  | .caseS _ s => exitType s
  | .defaultS s => exitType s
  | .compound body => exitTypeL body
  | .ifS _ _ t e =>
    match e with
    | none => .noExit
    | some e => joinExit (exitType t) (exitType e)
  | _ => .noExit

/-- `DeadCodeRule.cpp:43-53`: the first exit of a compound statement. -/
def exitTypeL : List Stmt → ExitType
  | [] => .noExit
  | s :: rest => if exitType s ≠ .noExit then exitType s else exitTypeL rest
end

/-- `DeadCodeRule.cpp:84-87`, `isAnyReturnStmt`. -/
def isAnyReturn (s : Stmt) : Bool := decide (exitType s ≠ .noExit)

/-- `DeadCodeRule.cpp:9-12`, `isAnyLabelStmt`. -/
def isAnyLabel (s : Stmt) : Bool :=
  match s with
  | .caseS _ _ => true
  | .defaultS _ => true
  | .labelS _ _ => true
  | _ => false

/-- `DeadCodeRule.cpp:140-151`: the loop over a compound statement. -/
def deadCodeLoop : Bool → List Stmt → List Stmt
  | _, [] => []
  | hasBreakPoint, s :: rest =>
    if hasBreakPoint && !isAnyLabel s then [s]
    else deadCodeLoop (isAnyReturn s) rest

/-- `DeadCodeRule.cpp:138-153`, `VisitCompoundStmt`. -/
def deadCodeVisit (s : Stmt) : List Stmt :=
  match s with
  | .compound body => deadCodeLoop false body
  | _ => []

end Oclint
