import Verif.Model.Ast

/-!
# oclint-metrics

The four code metrics.  All of them compute in `int`; every addition and multiplication is checked
(`checkInt32`), an overflow is undefined behaviour.
-/

namespace Oclint

/-- `int` addition. -/
def addInt (a b : Int) : Outcome Int := checkInt32 (a + b)

/-- `int` multiplication. -/
def mulInt (a b : Int) : Outcome Int := checkInt32 (a * b)

/-! ## Cyclomatic complexity -/

/-- Is `_count++` executed when this node is visited?
(oclint-metrics/lib/CyclomaticComplexityMetric.cpp:12-74: one `Visit...` method per kind) -/
def ccnVisit : Stmt → Bool
  | .ifS _ _ _ _ => true
  | .forS _ _ _ _ => true
  | .forIn _ _ _ => true
  | .whileS _ _ => true
  | .doS _ _ => true
  | .caseS _ _ => true
  | .atCatch _ => true
  | .cxxCatch _ _ => true
  | .condOp _ _ _ => true
  | .binary op _ _ => op = .land || op = .lor
  | _ => false

/-- The traversal, counting in `_count`. -/
def ccnCount (count : Int) : List Stmt → Outcome Int
  | [] => .ok count
  | s :: r => do
    let count ← if ccnVisit s then addInt count 1 else .ok count
    ccnCount count r

/-- `CyclomaticComplexityMetric::calculate` (oclint-metrics/lib/CyclomaticComplexityMetric.cpp:5-10).
The declaration is given by the statements below it (its body and default arguments). -/
def cyclomaticComplexity (parts : List Stmt) : Outcome Int := do
  let count ← ccnCount 0 (Stmt.nodesL parts)
  addInt count 1

/-! ## NPath complexity -/

/-- `nPath(clang::Expr*)` on a non-null pointer and the overloads it dispatches to
(oclint-metrics/include/oclint/metric/NPathComplexityMetric.h:37-47,
oclint-metrics/lib/NPathComplexityMetric.cpp:109-131). -/
def nPathExpr : Stmt → Outcome Int
  | .condOp c t f => do
    let a ← nPathExpr c
    let b ← nPathExpr t
    let d ← nPathExpr f
    let x ← addInt a b
    let y ← addInt x d
    addInt y 2
  | .binary op l r => do
    if op = .land || op = .lor then
      let a ← nPathExpr l
      let x ← addInt 1 a
      let b ← nPathExpr r
      addInt x b
    else .ok 0
  | .paren e => nPathExpr e
  | .cast _ _ e => nPathExpr e
  | _ => .ok 0

/-- `nPath(clang::Expr*)`; a null pointer counts 0 (NPathComplexityMetric.h:37-47). -/
def nPathExprO : Option Stmt → Outcome Int
  | none => .ok 0
  | some e => nPathExpr e

/-- `isa<clang::SwitchCase>`. -/
def isSwitchCase : Stmt → Bool
  | .caseS _ _ => true
  | .defaultS _ => true
  | _ => false

mutual
/-- `nPath(clang::Stmt*)` on a non-null pointer and the overloads it dispatches to
(oclint-metrics/include/oclint/metric/NPathComplexityMetric.h:21-35,
oclint-metrics/lib/NPathComplexityMetric.cpp:5-107). -/
def nPathStmt : Stmt → Outcome Int
  | .compound b => nPathCompound 1 b
  | .ifS _ c t e => do
    let nElse ← nPathStmtO e
    let a ← nPathExpr c
    let b ← nPathStmt t
    let x ← addInt a b
    addInt x nElse
  | .whileS c b => do
    let a ← nPathExpr c
    let n ← nPathStmt b
    let x ← addInt a n
    addInt x 1
  | .doS b c => do
    let a ← nPathExpr c
    let n ← nPathStmt b
    let x ← addInt a n
    addInt x 1
  | .forS i c n b => do
    let vi ← nPathStmtO i
    let vc ← nPathExprO c
    let vn ← nPathExprO n
    let vb ← nPathStmt b
    let x ← addInt vi vc
    let y ← addInt x vn
    let z ← addInt y vb
    addInt z 1
  | .switchS _ c (.compound b) => do
    let total ← nPathExpr c
    nPathSwitch 0 total b
  | .switchS _ c b => do
    let total ← nPathExpr c
    let n ← nPathStmt b
    addInt total n
  | .caseS _ s => nPathStmt s
  | .defaultS s => nPathStmt s
  | .forIn _ _ b => do
    let n ← nPathStmt b
    addInt n 2
  | _ => .ok 1

/-- the loop `npath *= nPath(*body)` (oclint-metrics/lib/NPathComplexityMetric.cpp:5-14) -/
def nPathCompound (npath : Int) : List Stmt → Outcome Int
  | [] => .ok npath
  | s :: r => do
    let n ← nPathStmt s
    let x ← mulInt npath n
    nPathCompound x r

/-- the loop over a switch body (oclint-metrics/lib/NPathComplexityMetric.cpp:88-101) -/
def nPathSwitch (internal total : Int) : List Stmt → Outcome Int
  | [] => addInt total internal
  | s :: r =>
    if isSwitchCase s then do
      let total ← addInt total internal
      let n ← nPathStmt s
      nPathSwitch n total r
    else do
      let n ← nPathStmt s
      let internal ← mulInt internal n
      nPathSwitch internal total r

/-- `nPath(clang::Stmt*)`; a null pointer counts 1 (NPathComplexityMetric.h:21-35). -/
def nPathStmtO : Option Stmt → Outcome Int
  | none => .ok 1
  | some s => nPathStmt s
end

/-- `getNPathComplexity` (oclint-metrics/lib/NPathComplexityMetric.cpp:133-137). -/
def npathComplexity (body : Stmt) : Outcome Int := nPathStmt body

/-! ## Non-commenting source statements -/

mutual
/-- `ncss(clang::Stmt*)` on a non-null pointer and its overloads
(oclint-metrics/include/oclint/metric/NcssMetric.h:15-38, oclint-metrics/lib/NcssMetric.cpp:5-109). -/
def ncss : Stmt → Outcome Int
  | .nullS => .ok 0
  | .compound b => ncssSum 0 b
  | .ifS _ _ t e => do
    let els ← ncssElse e
    let a ← ncss t
    let x ← addInt 1 a
    addInt x els
  | .whileS _ b => do addInt 1 (← ncss b)
  | .doS b _ => do addInt 2 (← ncss b)
  | .forS _ _ _ b => do addInt 1 (← ncss b)
  | .forIn _ _ b => do addInt 1 (← ncss b)
  | .switchS _ _ b => do addInt 1 (← ncss b)
  | .caseS _ s => do addInt 1 (← ncss s)
  | .defaultS s => do addInt 1 (← ncss s)
  | .cxxTry b hs => do
    let catches ← ncssSum 0 hs
    let x ← addInt 1 (← ncss b)
    addInt x catches
  | .cxxCatch _ b => do addInt 1 (← ncss b)
  | .atTry b cs f => do
    let catches ← ncssSum 0 cs
    let fin ← ncssFinally f
    let x ← addInt 1 (← ncss b)
    let y ← addInt x catches
    addInt y fin
  | .atCatch b => do addInt 1 (← ncss b)
  | .atFinally b => do addInt 1 (← ncss b)
  | .atSynchronized _ b => do addInt 1 (← ncss b)
  | .autoreleasePool b => do addInt 1 (← ncss b)
  | _ => .ok 1

/-- the accumulating loops (oclint-metrics/lib/NcssMetric.cpp:10-19, 62-70, 77-89) -/
def ncssSum (sum : Int) : List Stmt → Outcome Int
  | [] => .ok sum
  | s :: r => do
    let sum ← addInt sum (← ncss s)
    ncssSum sum r

/-- the `else` part (oclint-metrics/lib/NcssMetric.cpp:23-28) -/
def ncssElse : Option Stmt → Outcome Int
  | none => .ok 0
  | some e => do addInt (← ncss e) 1

/-- the `@finally` part (oclint-metrics/lib/NcssMetric.cpp:85-86) -/
def ncssFinally : Option Stmt → Outcome Int
  | none => .ok 0
  | some f => ncss f
end

/-- `getNcssCount` (oclint-metrics/lib/NcssMetric.cpp:111-119); `none` for a declaration without
a body. -/
def ncssCount : Option Stmt → Outcome Int
  | some body => do addInt (← ncss body) 1
  | none => .ok 0

/-! ## Block depth -/

mutual
/-- `depth(clang::Stmt*)` on a non-null pointer and its overloads
(oclint-metrics/include/oclint/metric/StmtDepthMetric.h:15-36,
oclint-metrics/lib/StmtDepthMetric.cpp:5-119). -/
def stmtDepth : Stmt → Outcome Int
  | .compound b => do addInt 1 (← depthMax 0 b)
  | .ifS _ _ t e => do
    let depthThen ← stmtDepth t
    let depthElse ← depthOpt e
    .ok (if depthThen > depthElse then depthThen else depthElse)
  | .whileS _ b => stmtDepth b
  | .doS b _ => stmtDepth b
  | .forS _ _ _ b => stmtDepth b
  | .forIn _ _ b => stmtDepth b
  | .switchS _ _ b => stmtDepth b
  | .caseS _ s => stmtDepth s
  | .defaultS s => stmtDepth s
  | .cxxTry b hs => do depthMax (← stmtDepth b) hs
  | .cxxCatch _ b => stmtDepth b
  | .atTry b cs f => do
    let maxDepth ← depthMax (← stmtDepth b) cs
    let depthFinally ← depthOpt f
    .ok (if maxDepth > depthFinally then maxDepth else depthFinally)
  | .atCatch b => stmtDepth b
  | .atFinally b => stmtDepth b
  | .atSynchronized _ b => stmtDepth b
  | .autoreleasePool b => stmtDepth b
  | _ => .ok 0

/-- the maximising loops (oclint-metrics/lib/StmtDepthMetric.cpp:7-16, 65-72, 84-91) -/
def depthMax (maxDepth : Int) : List Stmt → Outcome Int
  | [] => .ok maxDepth
  | s :: r => do
    let d ← stmtDepth s
    depthMax (if d > maxDepth then d else maxDepth) r

/-- a possibly missing branch (oclint-metrics/lib/StmtDepthMetric.cpp:23-28, 93-94) -/
def depthOpt : Option Stmt → Outcome Int
  | none => .ok 0
  | some s => stmtDepth s
end

end Oclint
