import Verif.Model.RulesControl

/-!
# Rules about expressions and about single statements

What each rule's `Visit...` method (or matcher callback) reports for one node; see
`Model/RulesControl.lean`.
-/

namespace Oclint

/-! ## Broken oddness check (`oclint-rules/rules/basic/BrokenOddnessCheckRule.cpp`) -/

/-- `BrokenOddnessCheckRule.cpp:11-15`. -/
def isIntegerLiteral (e : Stmt) (value : Nat) : Bool :=
  match e with
  | .intLit n => decide (n = value)
  | _ => false

/-- `BrokenOddnessCheckRule.cpp:17-22`. -/
def isRemainderByTwo (e : Stmt) : Bool :=
  match e with
  | .binary op _ r => decide (op = .rem) && isIntegerLiteral r 2
  | _ => false

/-- `BrokenOddnessCheckRule.cpp:24-28`. -/
def isRemainderEqualsOne (l r : Stmt) : Bool :=
  (isIntegerLiteral r 1 && isRemainderByTwo l) || (isIntegerLiteral l 1 && isRemainderByTwo r)

/-- `BrokenOddnessCheckRule.cpp:77-87`, `VisitBinaryOperator`. -/
def brokenOddnessVisit (s : Stmt) : List Stmt :=
  match s with
  | .binary op l r => if decide (op = .eq) && isRemainderEqualsOne l r then [s] else []
  | _ => []

/-! ## Double negative and multiple unary operators -/

/-- `oclint-rules/rules/basic/DoubleNegativeRule.cpp:65-69` and
`oclint-rules/rules/basic/MultipleUnaryOperatorRule.cpp:62-66`, also
`oclint-rules/rules/abstract/AbstractNullCheckRule.h:22-26`: the loop that removes parentheses. -/
def stripParens : Stmt → Stmt
  | .paren e => stripParens e
  | e => e

/-- `DoubleNegativeRule.cpp:11-19`. -/
def bothNegations (outer inner : UnOp) : Bool :=
  (decide (outer = .lnot) && decide (inner = .lnot)) ||
    (decide (outer = .not) && decide (inner = .not))

/-- `DoubleNegativeRule.cpp:62-81`, `VisitUnaryOperator`. -/
def doubleNegativeVisit (s : Stmt) : List Stmt :=
  match s with
  | .unary op sub =>
    match stripParens sub with
    | .unary op' _ => if bothNegations op op' then [s] else []
    | _ => []
  | _ => []

/-- `MultipleUnaryOperatorRule.cpp:11-17`. -/
def isTargetUnary (op : UnOp) : Bool :=
  decide (op = .lnot) || decide (op = .not) || decide (op = .plus) || decide (op = .minus)

/-- `MultipleUnaryOperatorRule.cpp:59-77`, `VisitUnaryOperator`. -/
def multipleUnaryVisit (s : Stmt) : List Stmt :=
  match s with
  | .unary op sub =>
    match stripParens sub with
    | .unary op' _ => if isTargetUnary op && isTargetUnary op' then [s] else []
    | _ => []
  | _ => []

/-! ## Constant conditions

`evaluate` stands for Clang's `Expr::EvaluateAsBooleanCondition`: the value of an expression that
can be folded. -/

/-- `oclint-rules/rules/basic/ConstantConditionalOperatorRule.cpp:52-63`,
`VisitConditionalOperator`. -/
def constantConditionalVisit (evaluate : Stmt → Option Bool) (s : Stmt) : List Stmt :=
  match s with
  | .condOp c _ _ => if (evaluate c).isSome then [c] else []
  | _ => []

/-- `oclint-rules/rules/basic/ConstantIfExpressionRule.cpp:58-69`, `VisitIfStmt`. -/
def constantIfVisit (evaluate : Stmt → Option Bool) (s : Stmt) : List Stmt :=
  match s with
  | .ifS _ c _ _ => if (evaluate c).isSome then [c] else []
  | _ => []

/-! ## Bitwise operator in conditional
(`oclint-rules/rules/basic/BitwiseOperatorInConditionalRule.cpp`) -/

/-- `BitwiseOperatorInConditionalRule.cpp:88-89`, `biOpMatcher`. -/
def isBitwiseOperator (s : Stmt) : Bool :=
  match s with
  | .binary .band _ _ => true
  | .binary .bor _ _ => true
  | .binary .bxor _ _ => true
  | _ => false

/-- `BitwiseOperatorInConditionalRule.cpp:92-94`: the condition itself or a descendant. -/
def conditionHasBitwise (c : Stmt) : Bool :=
  isBitwiseOperator c || c.kids.any fun k => k.nodes.any isBitwiseOperator

/-- `BitwiseOperatorInConditionalRule.cpp:58-84` and `91-110`. -/
def bitwiseInConditionalVisit (s : Stmt) : List Stmt :=
  match s with
  | .ifS _ c _ _ => if conditionHasBitwise c then [c] else []
  | .whileS c _ => if conditionHasBitwise c then [c] else []
  | .doS _ c => if conditionHasBitwise c then [c] else []
  | .condOp c _ _ => if conditionHasBitwise c then [c] else []
  | _ => []

/-! ## Goto -/

/-- `oclint-rules/rules/basic/GotoStatementRule.cpp:71-79`. -/
def gotoVisit (s : Stmt) : List Stmt :=
  match s with
  | .gotoS _ => [s]
  | _ => []

/-! ## Jumbled incrementer (`oclint-rules/rules/basic/JumbledIncrementerRule.cpp`) -/

/-- `JumbledIncrementerRule.cpp:11-19`, `varDeclFromInitStmt`. -/
def varDeclFromInit (init : Option Stmt) : Option DeclId :=
  match init with
  | some (.declS [.varD d _]) => some d
  | _ => none

/-- `JumbledIncrementerRule.cpp:21-34`, `valueDeclFromIncExpr`. -/
def valueDeclFromInc (inc : Option Stmt) : Option DeclId :=
  match inc with
  | some (.unary _ (.declRef d)) => some d
  | _ => none

/-- `JumbledIncrementerRule.cpp:36-41`, `isInnerIncMatchingOuterInit`: the same declaration. -/
def incMatchesInit (inc init : Option Stmt) : Bool :=
  match varDeclFromInit init, valueDeclFromInc inc with
  | some v, some d => decide (v.id = d.id)
  | _, _ => false

/-- `JumbledIncrementerRule.cpp:88-94`: the increment of the loop directly inside; `none` when
there is no such loop. -/
def innerFor (body : Stmt) : Option (Option Stmt) :=
  match body with
  | .forS _ _ inc _ => some inc
  | .compound [.forS _ _ inc _] => some inc
  | _ => none

/-- `JumbledIncrementerRule.cpp:86-106`, `VisitForStmt`. -/
def jumbledIncrementerVisit (s : Stmt) : List Stmt :=
  match s with
  | .forS init _ _ body =>
    match innerFor body with
    | some inc => if incMatchesInit inc init then inc.toList else []
    | none => []
  | _ => []

/-! ## Leaving a finally block -/

/-- `oclint-rules/rules/basic/ReturnFromFinallyBlockRule.cpp:22-26`. -/
def isReturn (s : Stmt) : Bool :=
  match s with
  | .returnS _ => true
  | _ => false

/-- `ReturnFromFinallyBlockRule.cpp:80-91`, `VisitObjCAtFinallyStmt`. -/
def returnFromFinallyVisit (s : Stmt) : List Stmt :=
  match s with
  | .atFinally _ => s.nodes.filter isReturn
  | _ => []

/-- `oclint-rules/rules/basic/ThrowExceptionFromFinallyBlockRule.cpp:24-28`. -/
def isAtThrow (s : Stmt) : Bool :=
  match s with
  | .atThrow _ => true
  | _ => false

/-- `ThrowExceptionFromFinallyBlockRule.cpp:47-50`. -/
def raiseSelectors : List Str :=
  ["raise".toList, "raise:format:".toList, "raise:format:arguments:".toList]

/-- `ThrowExceptionFromFinallyBlockRule.cpp:43-62`. -/
def isExceptionRaise (s : Stmt) : Bool :=
  match s with
  | .message cls _ sel _ =>
    raiseSelectors.contains sel && decide (cls = some "NSException".toList)
  | _ => false

/-- `ThrowExceptionFromFinallyBlockRule.cpp:118-137`, `VisitObjCAtFinallyStmt`: first the
throws, then the raises. -/
def throwFromFinallyVisit (s : Stmt) : List Stmt :=
  match s with
  | .atFinally _ => s.nodes.filter isAtThrow ++ s.nodes.filter isExceptionRaise
  | _ => []

/-! ## Branching statement as last in loop
(`oclint-rules/rules/convention/AvoidBranchingStatementAsLastInLoopRule.cpp`) -/

/-- `AvoidBranchingStatementAsLastInLoopRule.cpp:12-15`. -/
def isBranching (s : Stmt) : Bool :=
  match s with
  | .breakS => true
  | .continueS => true
  | .returnS _ => true
  | _ => false

/-- `AvoidBranchingStatementAsLastInLoopRule.cpp:17-34`, `applyStmt`; `body_back()` is null for
an empty block. -/
def lastBranching (body : Stmt) : List Stmt :=
  match body with
  | .compound b =>
    match b.getLast? with
    | some last => if isBranching last then [last] else []
    | none => []
  | _ => []

/-- `AvoidBranchingStatementAsLastInLoopRule.cpp:83-109`. -/
def branchingLastVisit (s : Stmt) : List Stmt :=
  match s with
  | .forS _ _ _ body => lastBranching body
  | .forIn _ _ body => lastBranching body
  | .doS body _ => lastBranching body
  | .whileS _ body => lastBranching body
  | _ => []

/-! ## Empty blocks (`oclint-rules/rules/abstract/AbstractEmptyBlockStmtRule.h`,
`oclint-rules/rules/empty/*.cpp`) -/

/-- `AbstractEmptyBlockStmtRule.h:8-12`. -/
def isLexicalEmpty (s : Stmt) : Bool :=
  match s with
  | .nullS => true
  | .compound b => b.isEmpty
  | _ => false

/-- `AbstractEmptyBlockStmtRule.h:14-22`, `checkLexicalEmptyStmt`. -/
def checkLexicalEmpty (s : Option Stmt) : List Stmt :=
  match s with
  | some b => if isLexicalEmpty b then [b] else []
  | none => []

/-- `empty/EmptyCatchStatementRule.cpp:59-67`. -/
def emptyCatchVisit (s : Stmt) : List Stmt :=
  match s with
  | .cxxCatch _ b => checkLexicalEmpty (some b)
  | .atCatch b => checkLexicalEmpty (some b)
  | _ => []

/-- `empty/EmptyDoWhileStatementRule.cpp:54-57`. -/
def emptyDoWhileVisit (s : Stmt) : List Stmt :=
  match s with
  | .doS b _ => checkLexicalEmpty (some b)
  | _ => []

/-- `empty/EmptyElseBlockRule.cpp:63-66`. -/
def emptyElseVisit (s : Stmt) : List Stmt :=
  match s with
  | .ifS _ _ _ e => checkLexicalEmpty e
  | _ => []

/-- `empty/EmptyFinallyStatementRule.cpp:63-66`. -/
def emptyFinallyVisit (s : Stmt) : List Stmt :=
  match s with
  | .atFinally b => checkLexicalEmpty (some b)
  | _ => []

/-- `empty/EmptyForStatementRule.cpp:58-66`. -/
def emptyForVisit (s : Stmt) : List Stmt :=
  match s with
  | .forS _ _ _ b => checkLexicalEmpty (some b)
  | .forIn _ _ b => checkLexicalEmpty (some b)
  | _ => []

/-- `empty/EmptyIfStatementRule.cpp:55-58`. -/
def emptyIfVisit (s : Stmt) : List Stmt :=
  match s with
  | .ifS _ _ t _ => checkLexicalEmpty (some t)
  | _ => []

/-- `empty/EmptySwitchStatementRule.cpp:54-57`. -/
def emptySwitchVisit (s : Stmt) : List Stmt :=
  match s with
  | .switchS _ _ b => checkLexicalEmpty (some b)
  | _ => []

/-- `empty/EmptyTryStatementRule.cpp:58-66`. -/
def emptyTryVisit (s : Stmt) : List Stmt :=
  match s with
  | .cxxTry b _ => checkLexicalEmpty (some b)
  | .atTry b _ _ => checkLexicalEmpty (some b)
  | _ => []

/-- `empty/EmptyWhileStatementRule.cpp:54-57`. -/
def emptyWhileVisit (s : Stmt) : List Stmt :=
  match s with
  | .whileS _ b => checkLexicalEmpty (some b)
  | _ => []

end Oclint
