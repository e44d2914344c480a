import Verif.Model.Suppress
import Verif.Model.RulesControl
import Verif.Model.Text

/-!
# Rules about Objective-C classes
-/

namespace Oclint

/-! ## `oclint-rules/rules/cocoa/ObjCVerifyIsEqualHashRule.cpp` -/

/-- `ObjCVerifyIsEqualHashRule.cpp:76-90`: one round of the loop; `foundHash` and `foundIsEqual`. -/
def isEqualHashStep (found : Bool × Bool) (name : Str) : Bool × Bool :=
  (if name = "hash".toList then true else found.1,
    if name = "isEqual:".toList then true else found.2)

/-- `ObjCVerifyIsEqualHashRule.cpp:72-100`, `VisitObjCImplementationDecl`; the names of the instance
methods of the implementation. -/
def isEqualHashVisit (instanceMethods : List Str) : List Str :=
  let found := instanceMethods.foldl isEqualHashStep (false, false)
  if found.2 && !found.1 then ["If you override isEqual you must override hash too.".toList] else []

/-! ## `oclint-rules/rules/cocoa/ObjCVerifyMustCallSuperRule.cpp` -/

/-- `ObjCMessageExpr::ReceiverKind`. -/
inductive ReceiverKind where
  | cls | instance | superClass | superInstance
  deriving DecidableEq, Repr

/-- What is read of a `clang::ObjCMethodDecl`; `sends` are the messages in its body.  The rule does
not look at `hasBody`. -/
structure OverridingMethod where
  selector : Str
  hasBody : Bool
  isOverriding : Bool
  overridden : List DeclInfo
  sends : List (Str × ReceiverKind)

/-- `ObjCVerifyMustCallSuperRule.cpp:26-33`: the checker's flag after a message. -/
def superCallStep (selector : Str) (found : Bool) (send : Str × ReceiverKind) : Bool :=
  if send.1 = selector ∧ send.2 = .superInstance then true else found

/-- `ObjCVerifyMustCallSuperRule.cpp:44-57`, `declRequiresSuperCall`. -/
def declRequiresSuperCall (m : OverridingMethod) : Bool :=
  if m.isOverriding then
    m.overridden.any fun d => (declHasEnforceAttribute d "base method".toList).isSome
  else false

/-- `ObjCVerifyMustCallSuperRule.cpp:127-143`, `VisitObjCMethodDecl`. -/
def mustCallSuperVisit (m : OverridingMethod) : List Str :=
  if declRequiresSuperCall m then
    if !m.sends.foldl (superCallStep m.selector) false then
      ["overridden method ".toList ++ m.selector ++ " must call super".toList]
    else []
  else []

/-! ## `oclint-rules/rules/cocoa/ObjCVerifyProhibitedCallRule.cpp` -/

/-- A call or a message. -/
inductive AnyCall where
  /-- a `CallExpr` with its direct callee, name and declaration, if there is one -/
  | function (callee : Option (Str × DeclInfo))
  /-- an `ObjCMessageExpr` with its selector and method, if it is known -/
  | message (selector : Str) (method : Option DeclInfo)

/-- `declHasEnforceAttribute` of a pointer that may be null (`AttributeHelper.cpp:141-151`, `37-63`). -/
def enforcedOn (d : Option DeclInfo) (rule : Str) : Option (Option Str) :=
  match d with
  | some d => declHasEnforceAttribute d rule
  | none => none

/-- `ObjCVerifyProhibitedCallRule.cpp:19-22` and `32-35`: the message; `comment` is empty if none was
assigned. -/
def prohibitedText (what name : Str) (comment : Option Str) : Str :=
  let description := "calling prohibited ".toList ++ what ++ [' '] ++ name
  if comment.getD [] ≠ [] then description ++ " instead use ".toList ++ comment.getD [] else description

/-- `ObjCVerifyProhibitedCallRule.cpp:18-24` and `31-37`. -/
def prohibitedReport (what name : Str) (d : Option DeclInfo) : List Str :=
  match enforcedOn d "prohibited method".toList with
  | some comment => [prohibitedText what name comment]
  | none => []

/-- `ObjCVerifyProhibitedCallRule.cpp:15-39`, `VisitCallExpr` and `VisitObjCMessageExpr`. -/
def prohibitedCallVisit (c : AnyCall) : List Str :=
  match c with
  | .function callee =>
    prohibitedReport "function".toList ((callee.map Prod.fst).getD []) (callee.map Prod.snd)
  | .message selector method => prohibitedReport "method".toList selector method

/-! ## `oclint-rules/rules/cocoa/ObjCVerifyProtectedMethodRule.cpp` -/

/-- `clang::ObjCInterfaceDecl`: name and superclass. -/
inductive ObjcClass where
  | mk (name : Str) (superClass : Option ObjcClass)

/-- `ObjCInterfaceDecl::getNameAsString`. -/
def ObjcClass.name : ObjcClass → Str
  | .mk n _ => n

/-- `oclint-rules/lib/util/ASTUtil.cpp:70-78`, `isObjCInterfaceClassOrSubclass` of a class that is
not null. -/
def isObjCInterfaceClassOrSubclass : ObjcClass → Str → Bool
  | .mk n none, className => n == className
  | .mk n (some s), className => if n = className then true else isObjCInterfaceClassOrSubclass s className

/-- `oclint-rules/lib/util/ASTUtil.cpp:60-67`, the loop over the superclasses. -/
def superClassNamed : ObjcClass → Str → Bool
  | .mk _ none, _ => false
  | .mk _ (some s), className => if s.name = className then true else superClassNamed s className

/-- `oclint-rules/lib/util/ASTUtil.cpp:57-68`, `isObjCMethodDeclInChildOfClass` of a method with this
`getClassInterface()`, which is null in protocols and dereferenced all the same.  No rule calls it. -/
def isObjCMethodDeclInChildOfClass (interface : Option ObjcClass) (className : Str) : Outcome Bool :=
  match interface with
  | none => .ub
  | some c => .ok (superClassNamed c className)

/-- An `ObjCMessageExpr`: selector, method (its declaration and `getClassInterface()`) and
`getReceiverInterface()`. -/
structure ClassSend where
  selector : Str
  method : Option (DeclInfo × Option ObjcClass)
  receiver : Option ObjcClass

/-- `ObjCVerifyProtectedMethodRule.cpp:25-41`, `VisitObjCMessageExpr` of the checker: is the message
kept. -/
def protectedViolation (container : ObjcClass) (s : ClassSend) : Bool :=
  match enforcedOn (s.method.map Prod.fst) "protected method".toList with
  | none => false
  | some _ =>
    match s.receiver with
    | none => false
    | some r => !isObjCInterfaceClassOrSubclass container r.name

/-- `ObjCVerifyProtectedMethodRule.cpp:60-67`: one round of the loop; `getClassInterface()` of the
method is dereferenced. -/
def protectedReport (s : ClassSend) : Outcome (ClassSend × Str) :=
  match s.method with
  | some (_, some c) => .ok (s, "calling protected method ".toList ++ s.selector ++
      " from outside ".toList ++ c.name ++ " and its subclasses".toList)
  | _ => .ub

/-- The loop `ObjCVerifyProtectedMethodRule.cpp:60-67`. -/
def protectedReports : List ClassSend → Outcome (List (ClassSend × Str))
  | [] => .ok []
  | s :: rest =>
    match protectedReport s with
    | .ok r =>
      match protectedReports rest with
      | .ok rs => .ok (r :: rs)
      | .throws w => .throws w
      | .ub => .ub
    | .throws w => .throws w
    | .ub => .ub

/-- `ObjCVerifyProtectedMethodRule.cpp:53-70`, `VisitObjCImplementationDecl`; the interface and the
messages in the implementation. -/
def protectedMethodVisit (interface : Option ObjcClass) (sends : List ClassSend) :
    Outcome (List (ClassSend × Str)) :=
  match interface with
  | none => .ok []
  | some c => protectedReports (sends.filter (protectedViolation c))

/-! ## `oclint-rules/rules/cocoa/ObjCVerifySubclassMustImplementRule.cpp` -/

/-- A method of an interface. -/
structure DeclaredMethod where
  selector : Str
  isInstance : Bool
  decl : DeclInfo

/-- `ObjCVerifySubclassMustImplementRule.cpp:86-105`, `VisitObjCImplementationDecl`.  `parent` is the
superclass with its own methods; `implemented` are the selectors of the implementation, with whether
they are instance methods.  Clang has an interface for every implementation. -/
def subclassMustImplementVisit (parent : Option (Str × List DeclaredMethod))
    (implemented : List (Str × Bool)) : List Str :=
  match parent with
  | none => []
  | some (className, methods) =>
    methods.flatMap fun m =>
      if (declHasEnforceAttribute m.decl "abstract method".toList).isSome then
        if !implemented.contains (m.selector, m.isInstance) then
          ["subclasses of ".toList ++ className ++ " must implement ".toList ++ m.selector]
        else []
      else []

/-- A class as Clang keeps it: `methods` are declared in the `@interface` itself, `inCategories` in
categories and extensions of it. -/
structure ObjCInterface where
  name : Str
  methods : List DeclaredMethod
  inCategories : List DeclaredMethod

/-- `ObjCVerifySubclassMustImplementRule.cpp:86-105` on a class whose superclasses are `ancestors`,
nearest first: `getSuperClass` is the first of them, and `meth_begin` gives the methods of the
`@interface`. -/
def implementationVisit (ancestors : List ObjCInterface) (implemented : List (Str × Bool)) : List Str :=
  subclassMustImplementVisit (ancestors.head?.map fun c => (c.name, c.methods)) implemented

/-! ## `oclint-rules/rules/convention/ObjCAssignIvarOutsideAccessorsRule.cpp` -/

/-- `BinaryOperator::isAssignmentOp` -/
def isAssignmentOp : BinOp → Bool
  | .assign => true
  | .compoundAssign _ => true
  | _ => false

/-- `ObjCAssignIvarOutsideAccessorsRule.cpp:11-26`, `ContainsIvarFetch`.  Which nodes are
`ObjCIvarRefExpr`s, and the name of the variable, is a parameter. -/
def ivarFetches (ivarName : Stmt → Option Str) (s : Stmt) : List Stmt :=
  s.nodes.filter fun n => (ivarName n).isSome

/-- `ObjCAssignIvarOutsideAccessorsRule.cpp:38-55`, `VisitBinaryOperator`. -/
def ivarAssignments (ivarName : Stmt → Option Str) (s : Stmt) : List Stmt :=
  match s with
  | .binary op l _ => if isAssignmentOp op then ivarFetches ivarName l else []
  | _ => []

/-- `ObjCAssignIvarOutsideAccessorsRule.cpp:141-152`: is the access reported. -/
def outsideAccessors (selectorName ivar : Str) : Bool :=
  let getterName := removeUnderscores ivar
  let setterName := "set".toList ++ capitalizeFirstLetter getterName ++ ":".toList
  (selectorName ≠ getterName ∧ selectorName ≠ setterName) ∧ selectorName.take 4 ≠ "init".toList

/-- `ObjCAssignIvarOutsideAccessorsRule.cpp:128-155`, `VisitObjCMethodDecl`. -/
def ivarAssignmentVisit (ivarName : Stmt → Option Str) (selectorName : Str) (body : Stmt) : List Stmt :=
  (reportOver (ivarAssignments ivarName) body).filter fun access =>
    match ivarName access with
    | some ivar => outsideAccessors selectorName ivar
    | none => false

end Oclint
