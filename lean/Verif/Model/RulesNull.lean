import Verif.Model.RulesExpr

/-!
# Rules about null checks
-/

namespace Oclint

/-! ## Shared code (`oclint-rules/rules/abstract/AbstractNullCheckRule.h`) -/

/-- `AbstractNullCheckRule.h:8-33`. -/
def isNullToPointer (e : Stmt) : Bool :=
  match e with
  | .cast .implicit kind sub =>
    if kind = .nullToPointer then true
    else if kind = .bitCast then
      match stripParens sub with
      | .cast .cstyle k _ => decide (k = .nullToPointer)
      | _ => false
    else false
  | _ => false

/-- `AbstractNullCheckRule.h:35-53`. -/
def isImplicitDeclRef (e : Stmt) : Bool :=
  match e with
  | .cast .implicit kind sub =>
    if kind = .pointerToBoolean then true
    else if kind = .lvalueToRvalue then
      match sub with
      | .declRef _ => true
      | _ => false
    else false
  | _ => false

/-- `AbstractNullCheckRule.h:55-72`. -/
def isEqNullCheck (e : Stmt) : Bool :=
  match e with
  | .binary op l r => decide (op = .eq) && (isNullToPointer l != isNullToPointer r)
  | .unary op sub => if op = .lnot then isImplicitDeclRef sub else false
  | _ => false

/-- `AbstractNullCheckRule.h:74-86`. -/
def isNeNullCheck (e : Stmt) : Bool :=
  match e with
  | .binary op l r => decide (op = .ne) && (isNullToPointer l != isNullToPointer r)
  | _ => isImplicitDeclRef e

/-- `AbstractNullCheckRule.h:88-102`, `extractIdentifierFromImplicitCastExpr` after the
`dyn_cast_or_null<ImplicitCastExpr>` of its callers; `[]` is the empty string. -/
def identifierOfCast : Stmt → Str
  | .cast .implicit kind sub =>
    if kind = .pointerToBoolean then identifierOfCast sub
    else
      match sub with
      | .declRef d => d.name
      | _ => []
  | _ => []

/-- `AbstractNullCheckRule.h:104-142`, `extractIdentifierFromExpr` with the functions for unary and
binary operators. -/
def identifierOf (e : Stmt) : Str :=
  match e with
  | .cast .implicit _ _ => identifierOfCast e
  | .binary _ l r => if isNullToPointer l then identifierOfCast r else identifierOfCast l
  | .unary _ sub => identifierOfCast sub
  | _ => []

/-- `AbstractNullCheckRule.h:159-168`, `VisitMemberExpr`: does it stop the traversal? -/
def isArrowOn (name : Str) (s : Stmt) : Bool :=
  match s with
  | .member arrow base _ => arrow && decide (name = identifierOfCast base)
  | _ => false

/-- `AbstractNullCheckRule.h:152-157`. -/
def hasArrowOn (name : Str) (e : Stmt) : Bool := e.nodes.any (isArrowOn name)

/-- `AbstractNullCheckRule.h:187-192`, `VisitObjCMessageExpr`: does it stop the traversal?  Without
an instance receiver the identifier is the empty string. -/
def isMessageTo (name : Str) (s : Stmt) : Bool :=
  match s with
  | .message _ receiver _ _ =>
    match receiver with
    | some r => decide (name = identifierOfCast r)
    | none => decide (name = [])
  | _ => false

/-- `AbstractNullCheckRule.h:179-185`. -/
def hasMessageTo (name : Str) (e : Stmt) : Bool := e.nodes.any (isMessageTo name)

/-! ## The rules -/

/-- `oclint-rules/rules/basic/BrokenNullCheckRule.cpp:13-33`; `has` is `hasVariableInExpr`. -/
def nullCheckBroken (has : Str → Stmt → Bool) (op : BinOp) (l r : Stmt) : Bool :=
  ((decide (op = .lor) && isNeNullCheck l) || (decide (op = .land) && isEqNullCheck l)) &&
    (if identifierOf l = [] then false else has (identifierOf l) r)

/-- `BrokenNullCheckRule.cpp:39-58`. -/
def brokenNullVisit (s : Stmt) : List Stmt :=
  match s with
  | .binary op l r => if nullCheckBroken hasArrowOn op l r then [s] else []
  | _ => []

/-- `BrokenNullCheckRule.cpp:114-120`, the rule for Objective-C. -/
def brokenNilVisit (s : Stmt) : List Stmt :=
  match s with
  | .binary op l r => if nullCheckBroken hasMessageTo op l r then [s] else []
  | _ => []

/-- `oclint-rules/rules/basic/MisplacedNullCheckRule.cpp:13-33`. -/
def nullCheckMisplaced (has : Str → Stmt → Bool) (op : BinOp) (l r : Stmt) : Bool :=
  ((decide (op = .land) && isNeNullCheck r) || (decide (op = .lor) && isEqNullCheck r)) &&
    (if identifierOf r = [] then false else has (identifierOf r) l)

/-- `MisplacedNullCheckRule.cpp:39-58`. -/
def misplacedNullVisit (s : Stmt) : List Stmt :=
  match s with
  | .binary op l r => if nullCheckMisplaced hasArrowOn op l r then [s] else []
  | _ => []

/-- `MisplacedNullCheckRule.cpp:121-127`, the rule for Objective-C. -/
def misplacedNilVisit (s : Stmt) : List Stmt :=
  match s with
  | .binary op l r => if nullCheckMisplaced hasMessageTo op l r then [s] else []
  | _ => []

/-- `oclint-rules/rules/redundant/RedundantNilCheckRule.cpp:14-27`. -/
def isRedundantNilCheck (op : BinOp) (l r : Stmt) : Bool :=
  if decide (op = .land) && isNeNullCheck l then
    match r with
    | .unary o _ => decide (o ≠ .lnot)
    | _ => true
  else false

/-- `RedundantNilCheckRule.cpp:35-40` and `91-99`, `VisitBinaryOperator`. -/
def redundantNilVisit (s : Stmt) : List Stmt :=
  match s with
  | .binary op l r =>
    if isRedundantNilCheck op l r &&
        (if identifierOf l = [] then false else hasMessageTo (identifierOf l) r) then [s] else []
  | _ => []

/-! ## Null check before delete
(`oclint-rules/rules/redundant/UnnecessaryNullCheckForCXXDeallocRule.cpp`)

`same` stands for `areSameExpr` (`oclint-rules/lib/util/ASTUtil.cpp:102-109`), which compares Clang's
canonical profiles of two expressions. -/

/-- `ASTUtil.cpp:90-100`. -/
def isANullPointerExpr : Stmt → Bool
  | .cast _ kind sub => if kind = .nullToPointer then true else isANullPointerExpr sub
  | _ => false

/-- `ASTUtil.cpp:111-120`. -/
def ignoreCastExpr : Stmt → Stmt
  | .cast _ _ sub => ignoreCastExpr sub
  | e => e

/-- `UnnecessaryNullCheckForCXXDeallocRule.cpp:7-36`, `IsCondNoNullPointer`: the pointer. -/
def conditionPointer (c : Stmt) : Option Stmt :=
  match c with
  | .binary op l r =>
    if op ≠ .ne then none
    else if isANullPointerExpr l then some (ignoreCastExpr r)
    else if isANullPointerExpr r then some (ignoreCastExpr l)
    else none
  | _ => some (ignoreCastExpr c)

/-- `UnnecessaryNullCheckForCXXDeallocRule.cpp:38-47`. -/
def isDeleteOf (same : Stmt → Stmt → Bool) (s pointer : Stmt) : Bool :=
  match s with
  | .deleteE arg => same (ignoreCastExpr arg) pointer
  | _ => false

/-- `UnnecessaryNullCheckForCXXDeallocRule.cpp:49-59`. -/
def isNullAssignment (same : Stmt → Stmt → Bool) (s pointer : Stmt) : Bool :=
  match s with
  | .binary op l r =>
    if op ≠ .assign then false else isANullPointerExpr r && same (ignoreCastExpr l) pointer
  | _ => false

/-- `UnnecessaryNullCheckForCXXDeallocRule.cpp:61-94`. -/
def isDeleteBlock (same : Stmt → Stmt → Bool) (s pointer : Stmt) : Bool :=
  match s with
  | .compound [a] => isDeleteOf same a pointer
  | .compound [a, b] => isDeleteOf same a pointer && isNullAssignment same b pointer
  | .compound _ => false
  | _ => isDeleteOf same s pointer

/-- `UnnecessaryNullCheckForCXXDeallocRule.cpp:151-168`, `VisitIfStmt`. -/
def nullCheckDeallocVisit (same : Stmt → Stmt → Bool) (s : Stmt) : List Stmt :=
  match s with
  | .ifS _ c t e =>
    if e.isSome then []
    else
      match conditionPointer c with
      | some p => if isDeleteBlock same t p then [s] else []
      | none => []
  | _ => []

end Oclint
