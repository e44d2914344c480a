import Verif.Model.RulesControl
import Verif.Model.RulesExpr
import Verif.Model.RulesSwitch
import Verif.Model.RulesNull
import Verif.Model.RulesLocal
import Verif.Model.Thresholds
import Verif.Model.Catalogue
import Verif.Model.RulesCocoa
import Verif.Model.RulesCxx
import Verif.Model.RulesMigration
import Verif.Model.RulesUnused
import Verif.Model.FeatureEnvy
import Verif.Model.ShortNames
import Verif.Model.SourceLines

/-!
# Replaying the tests of the repository

What the generated files in this directory use.  They are made by `tools/repotests.py`: it reads the
tests in the repository as text, has Clang parse the snippets in them, translates Clang's trees into
terms of `Model/Ast.lean` and compares what the model reports with what the test expects.  These are
tests of the model against the expectations of the authors of the code; nothing is proved from them.
-/

namespace Oclint

mutual
/-- Are two trees the same? -/
def sameStmt : Stmt → Stmt → Bool
  | .nullS, .nullS => true
  | .compound a, .compound b => sameStmts a b
  | .ifS a b c d, .ifS a' b' c' d' => sameOpt a a' && sameStmt b b' && sameStmt c c' && sameOpt d d'
  | .whileS a b, .whileS a' b' => sameStmt a a' && sameStmt b b'
  | .doS a b, .doS a' b' => sameStmt a a' && sameStmt b b'
  | .forS a b c d, .forS a' b' c' d' => sameOpt a a' && sameOpt b b' && sameOpt c c' && sameStmt d d'
  | .forRange a b c, .forRange a' b' c' => sameStmt a a' && sameStmt b b' && sameStmt c c'
  | .forIn a b c, .forIn a' b' c' => sameStmt a a' && sameStmt b b' && sameStmt c c'
  | .switchS f a b, .switchS f' a' b' => f == f' && sameStmt a a' && sameStmt b b'
  | .caseS a b, .caseS a' b' => sameStmt a a' && sameStmt b b'
  | .defaultS a, .defaultS a' => sameStmt a a'
  | .labelS n a, .labelS n' a' => n == n' && sameStmt a a'
  | .gotoS n, .gotoS n' => n == n'
  | .indirectGoto a, .indirectGoto a' => sameStmt a a'
  | .breakS, .breakS => true
  | .continueS, .continueS => true
  | .returnS a, .returnS a' => sameOpt a a'
  | .declS a, .declS a' => sameStmts a a'
  | .varD d a, .varD d' a' => d == d' && sameOpt a a'
  | .otherD d, .otherD d' => d == d'
  | .cxxTry a b, .cxxTry a' b' => sameStmt a a' && sameStmts b b'
  | .cxxCatch a b, .cxxCatch a' b' => sameOpt a a' && sameStmt b b'
  | .atTry a b c, .atTry a' b' c' => sameStmt a a' && sameStmts b b' && sameOpt c c'
  | .atCatch a, .atCatch a' => sameStmt a a'
  | .atFinally a, .atFinally a' => sameStmt a a'
  | .atSynchronized a b, .atSynchronized a' b' => sameStmt a a' && sameStmt b b'
  | .autoreleasePool a, .autoreleasePool a' => sameStmt a a'
  | .atThrow a, .atThrow a' => sameOpt a a'
  | .otherS a, .otherS a' => sameStmts a a'
  | .intLit a, .intLit a' => a == a'
  | .boolLit a, .boolLit a' => a == a'
  | .objcBoolLit a, .objcBoolLit a' => a == a'
  | .floatLit a, .floatLit a' => a == a'
  | .charLit a, .charLit a' => a == a'
  | .strLit a, .strLit a' => a == a'
  | .declRef d, .declRef d' => d == d'
  | .unary o a, .unary o' a' => o == o' && sameStmt a a'
  | .binary o a b, .binary o' a' b' => o == o' && sameStmt a a' && sameStmt b b'
  | .condOp a b c, .condOp a' b' c' => sameStmt a a' && sameStmt b b' && sameStmt c c'
  | .paren a, .paren a' => sameStmt a a'
  | .cast f k a, .cast f' k' a' => f == f' && k == k' && sameStmt a a'
  | .member w a n, .member w' a' n' => w == w' && sameStmt a a' && n == n'
  | .message k a s b, .message k' a' s' b' => k == k' && sameOpt a a' && s == s' && sameStmts b b'
  | .call a b, .call a' b' => sameStmt a a' && sameStmts b b'
  | .throwE a, .throwE a' => sameOpt a a'
  | .deleteE a, .deleteE a' => sameStmt a a'
  | .cleanups a, .cleanups a' => sameStmt a a'
  | .nullPtrLit, .nullPtrLit => true
  | .otherE a, .otherE a' => sameStmts a a'
  | _, _ => false

def sameStmts : List Stmt → List Stmt → Bool
  | [], [] => true
  | a :: as, b :: bs => sameStmt a b && sameStmts as bs
  | _, _ => false

def sameOpt : Option Stmt → Option Stmt → Bool
  | none, none => true
  | some a, some b => sameStmt a b
  | _, _ => false
end

/-- What a rule reports in functions, one after the other. -/
def overRoots (report : Stmt → List Stmt) (roots : List Stmt) : List Stmt := roots.flatMap report

/-- Is the statement one of these? -/
def isOneOf (s : Stmt) (candidates : List Stmt) : Bool := candidates.any (sameStmt s)

/-- The violation with this index is at a node with the expected place. -/
def reportedAt (index : Nat) (reports candidates : List Stmt) : Bool :=
  match reports[index]? with
  | some s => isOneOf s candidates
  | none => false

/-- There are exactly the expected violations. -/
def reportedAll (reports : List Stmt) (expected : List (List Stmt)) : Bool :=
  reports.length == expected.length && expected.all (fun c => reports.any fun s => isOneOf s c) &&
    reports.all fun s => expected.any (isOneOf s)

/-- What Clang computes for the conditions in the tests (only whether it is zero counts). -/
def testValue : Stmt → Option Int
  | .intLit n => some n
  | .boolLit b => some (if b then 1 else 0)
  | .objcBoolLit b => some (if b then 1 else 0)
  | .charLit n => some n
  | .floatLit n => some n
  | .condOp c a b =>
    match testValue c with
    | some 0 => testValue b
    | some _ => testValue a
    | none => none
  | .paren e => testValue e
  | .cast _ _ e => testValue e
  | .unary op e =>
    match op, testValue e with
    | .lnot, some v => some (if v = 0 then 1 else 0)
    | .minus, some v => some (-v)
    | _, _ => none
  | .binary op a b =>
    match op, testValue a, testValue b with
    | .land, some 0, _ => some 0
    | .lor, some 0, some b => some (if b = 0 then 0 else 1)
    | .lor, some _, _ => some 1
    | .land, some _, some b => some (if b = 0 then 0 else 1)
    | .eq, some a, some b => some (if a = b then 1 else 0)
    | .ne, some a, some b => some (if a = b then 0 else 1)
    | .lt, some a, some b => some (if a < b then 1 else 0)
    | .gt, some a, some b => some (if a > b then 1 else 0)
    | .le, some a, some b => some (if a ≤ b then 1 else 0)
    | .ge, some a, some b => some (if a ≥ b then 1 else 0)
    | .add, some a, some b => some (a + b)
    | .sub, some a, some b => some (a - b)
    | .mul, some a, some b => some (a * b)
    | _, _, _ => none
  | _ => none

/-- The same as a truth value. -/
def testEvaluate (e : Stmt) : Option Bool := (testValue e).map fun v => decide (v ≠ 0)

/-- What is reported for things that are numbered. -/
def taggedFrom {α : Type} (report : α → List Str) (n : Nat) : List α → List (Nat × Str)
  | [] => []
  | x :: xs => (report x).map (fun m => (n, m)) ++ taggedFrom report (n + 1) xs

/-- What is reported for things, with their indices. -/
def taggedReports {α : Type} (report : α → List Str) (xs : List α) : List (Nat × Str) :=
  taggedFrom report 0 xs

/-- The violation with this index is for one of these things and has this message. -/
def taggedAt (index : Nat) (reports : List (Nat × Str)) (ids : List Nat) (message : Str) : Bool :=
  match reports[index]? with
  | some r => ids.contains r.1 && r.2 == message
  | none => false

/-- There are exactly the expected violations. -/
def taggedAll (reports : List (Nat × Str)) (expected : List (List Nat × Str)) : Bool :=
  reports.length == expected.length &&
    expected.all (fun e => reports.any fun r => e.1.contains r.1 && r.2 == e.2) &&
    reports.all fun r => expected.any fun e => e.1.contains r.1 && r.2 == e.2

/-- A compound statement as a construct. -/
def blockOf : Stmt → Construct
  | .compound b => .block b
  | s => .block [s]

/-- The messages of a rule for one construct. -/
def metricMessages (cfg : Configurations) (rule : MetricRule) (c : Construct) : List Str :=
  match metricRule cfg rule [c] with
  | .ok reports => reports.map Prod.snd
  | _ => []

/-- A computation gives this number. -/
def isOk (o : Outcome Int) (n : Int) : Bool :=
  match o with
  | .ok m => m == n
  | _ => false

/-- The catalogue has this rule with these properties. -/
def hasProperties (className : Str) (priority : Int) (name category : Str) : Bool :=
  shippedRules.any fun r => r.source == className ++ ".cpp".toList && r.priority == priority && r.name == name &&
    r.category == category

/-- The parents of one node: node `i` is the parent of node `i + 1`. -/
def chainMap (kinds : List NodeKind) : ParentMap where
  kind n := (kinds[n]?).getD .other
  parents n := if n = 0 then [] else [n - 1]
  acyclic n p h := by
    by_cases hn : n = 0
    · simp [hn] at h
    · simp [hn] at h; omega

/-- What a rule reports for something that is not suppressed; the node with its parents, outer ones
first, is given with it. -/
def unsuppressed {α : Type} (rule : Str) (report : α → List Str) (x : List NodeKind × α) : List Str :=
  if shouldSuppressNode (chainMap x.1) (some rule) (x.1.length - 1) then [] else report x.2

/-- The rule of `AttributeHelperTest.cpp:11-49`. -/
def attributeTestVisit : AnyCall → List Str
  | .function callee =>
    ((callee.map Prod.snd).bind fun d => declHasActionAttribute "enforce".toList "test attribute".toList d).toList.map
      fun _ => []
  | .message _ method =>
    (method.bind fun d => declHasActionAttribute "enforce".toList "test attribute".toList d).toList.map fun _ => []

/-- The rule of `AttributeHelperTest.cpp:51-87`. -/
def attributeCommentTestVisit : AnyCall → List Str
  | .function callee =>
    ((callee.map Prod.snd).bind fun d => declHasActionAttribute "enforce".toList "test attribute".toList d).toList.map
      fun c => if c.getD [] ≠ [] then c.getD [] else "no comment".toList
  | .message _ _ => []

/-- A message in the implementation of a class. -/
def protectedTestVisit (x : ObjcClass × ClassSend) : List Str :=
  match protectedMethodVisit (some x.1) [x.2] with
  | .ok r => r.map Prod.snd
  | _ => []

/-- The same reports, in any order. -/
def sameReports (reports expected : List (Str × Str)) : Bool :=
  reports.length == expected.length && reports.all expected.contains && expected.all reports.contains

/-- The result, if there is one. -/
def okOr {α : Type} (otherwise : α) : Outcome α → α
  | .ok x => x
  | _ => otherwise

/-- The declarations that are traversed. -/
def traversed (events : List VisitEvent) : List Nat :=
  events.flatMap fun e => match e with
    | .traverse id => [id]
    | _ => []

/-- First and last lines that are written in a table. -/
def rangeIn (table : List (Stmt × (Nat × Nat))) (s : Stmt) : Nat × Nat :=
  match table.find? fun e => sameStmt e.1 s with
  | some e => e.2
  | none => (0, 0)

/-- Accesses of instance variables are translated into members. -/
def memberName : Stmt → Option Str
  | .member _ _ n => some n
  | _ => none

/-- The violation with this index has this place and message. -/
def violationAt (index : Nat) (vs : List Violation) (place : Int × Int × Int × Int) (message : Str) : Bool :=
  match vs[index]? with
  | some v => (v.startLine, v.startColumn, v.endLine, v.endColumn) == place && v.message == message
  | none => false

/-- What the rule for long lines reports. -/
def longLineViolations (apple : Bool) (cfg : Configurations) (u : SourceUnit) : List Violation :=
  (okOr ([], SuppressCache.empty)
    (sourceLineApply (longLineEachLine apple cfg 0 u) ([], SuppressCache.empty) u.buffer)).1

/-- The rule of `SuppressHelperTest.cpp:155-177`, which reports every line. -/
def everyLineViolations (apple : Bool) (rule : Str) (u : SourceUnit) : List Violation :=
  (okOr (([] : ViolationSet), SuppressCache.empty)
    (sourceLineApply
      (fun st n line => .ok (addViolationLine apple rule st.2 u st.1 n 1 n line.length 0 []))
      ([], SuppressCache.empty) u.buffer)).1

/-- The rule of `SuppressHelperTest.cpp:10-40`, which reports every node; the nodes are given with
their parents, outer ones first. -/
def everyNodeViolations (apple : Bool) (rule : Str) (u : SourceUnit) (nodes : List (List NodeKind × NodeRange)) :
    List Violation :=
  (nodes.foldl (fun (st : ViolationSet × SuppressCache) x =>
    addViolationNode apple (chainMap x.1) (fun _ => x.2) rule st.2 u st.1 (some (x.1.length - 1)) 0 [])
    ([], SuppressCache.empty)).1

/-- What the rule for short names reports in one unit. -/
def shortNames (cfg : Configurations) (roots : List Stmt) : List (Nat × Str) :=
  (okOr ([], []) (shortNameRule cfg [] roots)).2.map fun r => (r.1.id, r.2)

end Oclint
