import Verif.Model.Basic

/-!
# The syntax trees the metrics and rules walk over

Clang is not part of the repository, so its AST classes are modelled by one inductive type that
keeps exactly what the modelled metrics and rules ask for (`isa<...>`, `getThen()`, `getOpcode()`,
...).  As in Clang, an expression is a statement.  A pointer that may be null is an `Option`; a
pointer that Clang guarantees to be non-null is a plain field.

Not represented: condition variables of `for`, `while` and `switch`, the parameter of `@catch`,
types (beyond cast kinds and the enum-coverage flag of a switch), and declarations nested in
statements other than variables.
Statement and expression kinds no modelled rule looks at are `otherS` / `otherE` with their
children.
-/

namespace Oclint

/-- `clang::BinaryOperatorKind` (the ones that matter are named). -/
inductive BinOp where
  | land | lor | eq | ne | lt | gt | le | ge
  | add | sub | mul | div | rem | shl | shr | band | bor | bxor
  /-- `BO_Assign` -/
  | assign
  /-- `BO_MulAssign` ... `BO_OrAssign`, the flag is only there to keep two of them apart -/
  | compoundAssign (which : Nat)
  | comma | other
  deriving DecidableEq, Repr

/-- `clang::UnaryOperatorKind`. -/
inductive UnOp where
  | lnot | not | plus | minus | preInc | preDec | postInc | postDec | deref | addrOf | other
  deriving DecidableEq, Repr

/-- `clang::CastKind`, as far as the rules look at it. -/
inductive CastKind where
  | nullToPointer | bitCast | pointerToBoolean | lvalueToRvalue | other
  deriving DecidableEq, Repr

/-- Which subclass of `clang::CastExpr` a cast is. -/
inductive CastForm where
  | implicit | cstyle | otherExplicit
  deriving DecidableEq, Repr

/-- A declaration: identity (pointer value) and name. -/
structure DeclId where
  id : Nat
  name : Str
  deriving DecidableEq, Repr

/-- `clang::Stmt` and its subclasses, including `clang::Expr`. -/
inductive Stmt where
  /-- `NullStmt`, a lone `;` -/
  | nullS
  /-- `CompoundStmt` -/
  | compound (body : List Stmt)
  /-- `IfStmt`; `pre` is a C++17 init statement or a condition variable -/
  | ifS (pre : Option Stmt) (cond thn : Stmt) (els : Option Stmt)
  /-- `WhileStmt` -/
  | whileS (cond body : Stmt)
  /-- `DoStmt` -/
  | doS (body cond : Stmt)
  /-- `ForStmt` -/
  | forS (init cond inc : Option Stmt) (body : Stmt)
  /-- `CXXForRangeStmt`; `loopVar` is the `DeclStmt` of the loop variable, traversed first -/
  | forRange (range loopVar body : Stmt)
  /-- `ObjCForCollectionStmt` -/
  | forIn (elem coll body : Stmt)
  /-- `SwitchStmt`; the flag is `isAllEnumCasesCovered()` -/
  | switchS (allEnumCovered : Bool) (cond body : Stmt)
  /-- `CaseStmt` -/
  | caseS (value sub : Stmt)
  /-- `DefaultStmt` -/
  | defaultS (sub : Stmt)
  /-- `LabelStmt` -/
  | labelS (name : Str) (sub : Stmt)
  /-- `GotoStmt` -/
  | gotoS (name : Str)
  /-- `IndirectGotoStmt` -/
  | indirectGoto (target : Stmt)
  | breakS
  | continueS
  /-- `ReturnStmt` -/
  | returnS (value : Option Stmt)
  /-- `DeclStmt`; its members are `varD` and `otherD` -/
  | declS (decls : List Stmt)
  /-- a `VarDecl` inside a `DeclStmt` -/
  | varD (decl : DeclId) (init : Option Stmt)
  /-- any other declaration inside a `DeclStmt`; `name` is `none` for an unnamed kind of
  declaration (not a `NamedDecl`) -/
  | otherD (decl : Option DeclId)
  /-- `CXXTryStmt` -/
  | cxxTry (block : Stmt) (handlers : List Stmt)
  /-- `CXXCatchStmt`; `param` is the exception declaration, a `varD` -/
  | cxxCatch (param : Option Stmt) (block : Stmt)
  /-- `ObjCAtTryStmt` -/
  | atTry (body : Stmt) (catches : List Stmt) (fin : Option Stmt)
  /-- `ObjCAtCatchStmt` -/
  | atCatch (body : Stmt)
  /-- `ObjCAtFinallyStmt` -/
  | atFinally (body : Stmt)
  /-- `ObjCAtSynchronizedStmt` -/
  | atSynchronized (lock body : Stmt)
  /-- `ObjCAutoreleasePoolStmt` -/
  | autoreleasePool (body : Stmt)
  /-- `ObjCAtThrowStmt` -/
  | atThrow (value : Option Stmt)
  /-- any other statement -/
  | otherS (children : List Stmt)
  /-- `IntegerLiteral` -/
  | intLit (value : Nat)
  /-- `CXXBoolLiteralExpr` -/
  | boolLit (value : Bool)
  /-- `ObjCBoolLiteralExpr` -/
  | objcBoolLit (value : Bool)
  /-- `FloatingLiteral`; the value identifies the approximating double -/
  | floatLit (value : Nat)
  /-- `CharacterLiteral` -/
  | charLit (value : Nat)
  /-- `StringLiteral` -/
  | strLit (value : Str)
  /-- `DeclRefExpr` -/
  | declRef (decl : DeclId)
  /-- `UnaryOperator` -/
  | unary (op : UnOp) (sub : Stmt)
  /-- `BinaryOperator` (including `CompoundAssignOperator`) -/
  | binary (op : BinOp) (lhs rhs : Stmt)
  /-- `ConditionalOperator` -/
  | condOp (cond tru fls : Stmt)
  /-- `ParenExpr` -/
  | paren (sub : Stmt)
  /-- `CastExpr` -/
  | cast (form : CastForm) (kind : CastKind) (sub : Stmt)
  /-- `MemberExpr` -/
  | member (arrow : Bool) (base : Stmt) (name : Str)
  /-- `ObjCMessageExpr`; `receiver` is the instance receiver, `cls` the name of the receiver
  interface when there is one -/
  | message (cls : Option Str) (receiver : Option Stmt) (selector : Str) (args : List Stmt)
  /-- `CallExpr` and its subclasses -/
  | call (callee : Stmt) (args : List Stmt)
  /-- `CXXThrowExpr` -/
  | throwE (value : Option Stmt)
  /-- `CXXDeleteExpr` -/
  | deleteE (arg : Stmt)
  /-- `ExprWithCleanups` -/
  | cleanups (sub : Stmt)
  /-- `CXXNullPtrLiteralExpr` / `GNUNullExpr` -/
  | nullPtrLit
  /-- any other expression -/
  | otherE (children : List Stmt)
  deriving Repr

namespace Stmt

/-- The children in the order `clang::RecursiveASTVisitor` traverses them. -/
def kids : Stmt → List Stmt
  | .nullS => []
  | .compound b => b
  | .ifS p c t e => p.toList ++ c :: t :: e.toList
  | .whileS c b => [c, b]
  | .doS b c => [b, c]
  | .forS i c n b => i.toList ++ c.toList ++ n.toList ++ [b]
  | .forRange r v b => [v, r, b]
  | .forIn e c b => [e, c, b]
  | .switchS _ c b => [c, b]
  | .caseS v s => [v, s]
  | .defaultS s => [s]
  | .labelS _ s => [s]
  | .gotoS _ => []
  | .indirectGoto t => [t]
  | .breakS => []
  | .continueS => []
  | .returnS v => v.toList
  | .declS ds => ds
  | .varD _ i => i.toList
  | .otherD _ => []
  | .cxxTry b hs => b :: hs
  | .cxxCatch p b => p.toList ++ [b]
  | .atTry b cs f => b :: cs ++ f.toList
  | .atCatch b => [b]
  | .atFinally b => [b]
  | .atSynchronized l b => [l, b]
  | .autoreleasePool b => [b]
  | .atThrow v => v.toList
  | .otherS ks => ks
  | .intLit _ => []
  | .boolLit _ => []
  | .objcBoolLit _ => []
  | .floatLit _ => []
  | .charLit _ => []
  | .strLit _ => []
  | .declRef _ => []
  | .unary _ e => [e]
  | .binary _ l r => [l, r]
  | .condOp c t f => [c, t, f]
  | .paren e => [e]
  | .cast _ _ e => [e]
  | .member _ b _ => [b]
  | .message _ r _ as => r.toList ++ as
  | .call c as => c :: as
  | .throwE v => v.toList
  | .deleteE e => [e]
  | .cleanups e => [e]
  | .nullPtrLit => []
  | .otherE ks => ks

mutual
/-- All nodes below and including `s`, in the order `RecursiveASTVisitor::TraverseStmt` calls the
`Visit...` methods (a node before its children, children left to right).  The metrics and rules
ignore the boolean result of the traversal or always return `true`, except where the model says
otherwise. -/
def nodes : Stmt → List Stmt
  | .nullS => [.nullS]
  | .compound b => .compound b :: nodesL b
  | .ifS p c t e => .ifS p c t e :: (nodesO p ++ (nodes c ++ (nodes t ++ nodesO e)))
  | .whileS c b => .whileS c b :: (nodes c ++ nodes b)
  | .doS b c => .doS b c :: (nodes b ++ nodes c)
  | .forS i c n b => .forS i c n b :: (nodesO i ++ (nodesO c ++ (nodesO n ++ nodes b)))
  | .forRange r v b => .forRange r v b :: (nodes v ++ (nodes r ++ nodes b))
  | .forIn e c b => .forIn e c b :: (nodes e ++ (nodes c ++ nodes b))
  | .switchS a c b => .switchS a c b :: (nodes c ++ nodes b)
  | .caseS v s => .caseS v s :: (nodes v ++ nodes s)
  | .defaultS s => .defaultS s :: nodes s
  | .labelS l s => .labelS l s :: nodes s
  | .gotoS l => [.gotoS l]
  | .indirectGoto t => .indirectGoto t :: nodes t
  | .breakS => [.breakS]
  | .continueS => [.continueS]
  | .returnS v => .returnS v :: nodesO v
  | .declS ds => .declS ds :: nodesL ds
  | .varD d i => .varD d i :: nodesO i
  | .otherD d => [.otherD d]
  | .cxxTry b hs => .cxxTry b hs :: (nodes b ++ nodesL hs)
  | .cxxCatch p b => .cxxCatch p b :: (nodesO p ++ nodes b)
  | .atTry b cs f => .atTry b cs f :: (nodes b ++ (nodesL cs ++ nodesO f))
  | .atCatch b => .atCatch b :: nodes b
  | .atFinally b => .atFinally b :: nodes b
  | .atSynchronized l b => .atSynchronized l b :: (nodes l ++ nodes b)
  | .autoreleasePool b => .autoreleasePool b :: nodes b
  | .atThrow v => .atThrow v :: nodesO v
  | .otherS ks => .otherS ks :: nodesL ks
  | .intLit v => [.intLit v]
  | .boolLit v => [.boolLit v]
  | .objcBoolLit v => [.objcBoolLit v]
  | .floatLit v => [.floatLit v]
  | .charLit v => [.charLit v]
  | .strLit v => [.strLit v]
  | .declRef d => [.declRef d]
  | .unary o e => .unary o e :: nodes e
  | .binary o l r => .binary o l r :: (nodes l ++ nodes r)
  | .condOp c t f => .condOp c t f :: (nodes c ++ (nodes t ++ nodes f))
  | .paren e => .paren e :: nodes e
  | .cast f k e => .cast f k e :: nodes e
  | .member a b n => .member a b n :: nodes b
  | .message k r l as => .message k r l as :: (nodesO r ++ nodesL as)
  | .call c as => .call c as :: (nodes c ++ nodesL as)
  | .throwE v => .throwE v :: nodesO v
  | .deleteE e => .deleteE e :: nodes e
  | .cleanups e => .cleanups e :: nodes e
  | .nullPtrLit => [.nullPtrLit]
  | .otherE ks => .otherE ks :: nodesL ks

/-- `nodes` over a list of children. -/
def nodesL : List Stmt → List Stmt
  | [] => []
  | s :: r => nodes s ++ nodesL r

/-- `nodes` over a possibly missing child. -/
def nodesO : Option Stmt → List Stmt
  | none => []
  | some s => nodes s
end

end Stmt
end Oclint
