import Verif.Model.RulesControl
import Verif.Model.Registry

/-!
# Rules about switch statements
-/

namespace Oclint

mutual
/-- The `case` and `default` labels of a switch with this body, in the order in which Clang adds them
to `clang::SwitchStmt::getSwitchCaseList()`, which is this list reversed: a `case` label when its
value is read (`Sema::ActOnCaseStmt`), a `default` label when the statement behind it is read
(`Sema::ActOnDefaultStmt`).  Labels inside of another switch belong to that one. -/
def ownLabels : Stmt → List Stmt
  | .nullS => []
  | .compound b => ownLabelsL b
  | .ifS p c t e => ownLabelsO p ++ (ownLabels c ++ (ownLabels t ++ ownLabelsO e))
  | .whileS c b => ownLabels c ++ ownLabels b
  | .doS b c => ownLabels b ++ ownLabels c
  | .forS i c n b => ownLabelsO i ++ (ownLabelsO c ++ (ownLabelsO n ++ ownLabels b))
  | .forRange r v b => ownLabels v ++ (ownLabels r ++ ownLabels b)
  | .forIn e c b => ownLabels e ++ (ownLabels c ++ ownLabels b)
  | .switchS _ _ _ => []
  | .caseS v s => .caseS v s :: (ownLabels v ++ ownLabels s)
  | .defaultS s => ownLabels s ++ [.defaultS s]
  | .labelS _ s => ownLabels s
  | .gotoS _ => []
  | .indirectGoto t => ownLabels t
  | .breakS => []
  | .continueS => []
  | .returnS v => ownLabelsO v
  | .declS ds => ownLabelsL ds
  | .varD _ i => ownLabelsO i
  | .otherD _ => []
  | .cxxTry b hs => ownLabels b ++ ownLabelsL hs
  | .cxxCatch p b => ownLabelsO p ++ ownLabels b
  | .atTry b cs f => ownLabels b ++ (ownLabelsL cs ++ ownLabelsO f)
  | .atCatch b => ownLabels b
  | .atFinally b => ownLabels b
  | .atSynchronized l b => ownLabels l ++ ownLabels b
  | .autoreleasePool b => ownLabels b
  | .atThrow v => ownLabelsO v
  | .otherS ks => ownLabelsL ks
  | .intLit _ => []
  | .boolLit _ => []
  | .objcBoolLit _ => []
  | .floatLit _ => []
  | .charLit _ => []
  | .strLit _ => []
  | .declRef _ => []
  | .unary _ e => ownLabels e
  | .binary _ l r => ownLabels l ++ ownLabels r
  | .condOp c t f => ownLabels c ++ (ownLabels t ++ ownLabels f)
  | .paren e => ownLabels e
  | .cast _ _ e => ownLabels e
  | .member _ b _ => ownLabels b
  | .message _ r _ as => ownLabelsO r ++ ownLabelsL as
  | .call c as => ownLabels c ++ ownLabelsL as
  | .throwE v => ownLabelsO v
  | .deleteE e => ownLabels e
  | .cleanups e => ownLabels e
  | .nullPtrLit => []
  | .otherE ks => ownLabelsL ks

/-- `ownLabels` over a list. -/
def ownLabelsL : List Stmt → List Stmt
  | [] => []
  | s :: r => ownLabels s ++ ownLabelsL r

/-- `ownLabels` over a possibly missing statement. -/
def ownLabelsO : Option Stmt → List Stmt
  | none => []
  | some s => ownLabels s
end

/-- `isa<CaseStmt>`. -/
def isCase (s : Stmt) : Bool :=
  match s with
  | .caseS _ _ => true
  | _ => false

/-- `isa<DefaultStmt>`. -/
def isDefault (s : Stmt) : Bool :=
  match s with
  | .defaultS _ => true
  | _ => false

/-- `SwitchStmt::getSwitchCaseList`, in the order of `getNextSwitchCase`: last added label first
(`oclint-rules/rules/convention/DefaultLabelNotLastInSwitchStatementRule.cpp:71`). -/
def switchCaseList (body : Stmt) : List Stmt := (ownLabels body).reverse

/-- `oclint-rules/rules/convention/CoveredSwitchStatementsDontNeedDefaultRule.cpp:79-89` and
`oclint-rules/rules/convention/SwitchStatementsShouldHaveDefaultRule.cpp:74-84`: the loop that looks
for a default label. -/
def hasDefault : List Stmt → Bool
  | [] => false
  | s :: rest => if isDefault s then true else hasDefault rest

/-- `CoveredSwitchStatementsDontNeedDefaultRule.cpp:77-96`, `VisitSwitchStmt`. -/
def coveredSwitchVisit (s : Stmt) : List Stmt :=
  match s with
  | .switchS covered _ body => if hasDefault (switchCaseList body) && covered then [s] else []
  | _ => []

/-- `SwitchStatementsShouldHaveDefaultRule.cpp:67-91`, `VisitSwitchStmt`. -/
def missingDefaultVisit (s : Stmt) : List Stmt :=
  match s with
  | .switchS covered _ body =>
    if covered then []
    else if !hasDefault (switchCaseList body) then [s] else []
  | _ => []

/-- `DefaultLabelNotLastInSwitchStatementRule.cpp:75-83`: the loop over the labels. -/
def defaultNotLastLoop : List Stmt → List Stmt
  | cur :: next :: rest =>
    if isCase cur then
      (if isDefault next then [next] else []) ++ defaultNotLastLoop (next :: rest)
    else []
  | _ => []

/-- `DefaultLabelNotLastInSwitchStatementRule.cpp:69-86`, `VisitSwitchStmt`. -/
def defaultNotLastVisit (s : Stmt) : List Stmt :=
  match s with
  | .switchS _ _ body => defaultNotLastLoop (switchCaseList body)
  | _ => []

/-- `oclint-rules/rules/convention/TooFewBranchesInSwitchStatementRule.cpp:12-30`, `CountCaseStmts`:
all `case` labels in the tree.  (An `int`, which cannot overflow before memory runs out.) -/
def countCases (s : Stmt) : Nat := (s.nodes.filter isCase).length

/-- `TooFewBranchesInSwitchStatementRule.cpp:87-98`, `VisitSwitchStmt`. -/
def tooFewBranchesVisit (cfg : Configurations) (s : Stmt) : Outcome (List Stmt) := do
  match s with
  | .switchS _ _ _ =>
    let (threshold, _) ← cfg.intForKey "MINIMUM_CASES_IN_SWITCH".toList 3
    pure (if (countCases s : Int) < threshold then [s] else [])
  | _ => pure []

/-! ## Missing break (`oclint-rules/rules/convention/MissingBreakInSwitchStatementRule.cpp`) -/

/-- `MissingBreakInSwitchStatementRule.cpp:23-46`: the nodes that stop the traversal of
`FindingBreak`. -/
def isExitNode (s : Stmt) : Bool :=
  match s with
  | .breakS => true
  | .returnS _ => true
  | .continueS => true
  | .throwE _ => true
  | .atThrow _ => true
  | _ => false

/-- `MissingBreakInSwitchStatementRule.cpp:14-21`, `findBreak` and `findSubBreak`: the traversal is
stopped by one of the nodes. -/
def findBreak (s : Stmt) : Bool := s.nodes.any isExitNode

/-- `MissingBreakInSwitchStatementRule.cpp:96-99`. -/
def isSwitchLabel (s : Stmt) : Bool :=
  match s with
  | .caseS _ _ => true
  | .defaultS _ => true
  | _ => false

/-- `MissingBreakInSwitchStatementRule.cpp:101-114`, `isBreakingPoint`. -/
def isBreakingPoint (s : Stmt) : Bool :=
  let isSubClean :=
    match s with
    | .cleanups _ => findBreak s
    | .compound _ => findBreak s
    | _ => false
  (match s with
    | .breakS => true
    | .returnS _ => true
    | .throwE _ => true
    | .continueS => true
    | .atThrow _ => true
    | _ => false) || isSubClean

/-- `MissingBreakInSwitchStatementRule.cpp:124-149`: the loop over the statements of the body and
the test after it; the number of reports.  After a report in the loop `breakFound` is still false,
so there is a second one. -/
def missingBreakLoop : Bool → List Stmt → Nat
  | breakFound, [] => if !breakFound then 1 else 0
  | breakFound, s :: rest =>
    if isBreakingPoint s then missingBreakLoop true rest
    else if isSwitchLabel s then
      if !breakFound then 2 else missingBreakLoop (findBreak s) rest
    else missingBreakLoop breakFound rest

/-- `MissingBreakInSwitchStatementRule.cpp:116-152`, `VisitSwitchStmt`. -/
def missingBreakVisit (s : Stmt) : List Stmt :=
  match s with
  | .switchS _ _ (.compound body) => List.replicate (missingBreakLoop true body) s
  | _ => []

/-! ## Labels in a switch -/

/-- `oclint-rules/rules/convention/NonCaseLabelInSwitchStatementRule.cpp:23-27`. -/
def isLabel (s : Stmt) : Bool :=
  match s with
  | .labelS _ _ => true
  | _ => false

/-- `NonCaseLabelInSwitchStatementRule.cpp:77-88`, `VisitSwitchStmt`. -/
def nonCaseLabelVisit (s : Stmt) : List Stmt :=
  match s with
  | .switchS _ _ _ => s.nodes.filter isLabel
  | _ => []

end Oclint
