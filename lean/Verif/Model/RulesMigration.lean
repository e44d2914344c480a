import Verif.Model.Basic

/-!
# Rules that propose Objective-C literals

`oclint-rules/rules/migration`.  These rules look at types, which `Stmt` does not have.  `TypedExpr`
keeps what they ask of an expression; `type` is `getType().getAsString()`.
-/

namespace Oclint

/-- `clang::Expr`, as far as these rules look at it. -/
inductive TypedExpr where
  /-- `ParenExpr` -/
  | paren (type : Str) (sub : TypedExpr)
  /-- `ImplicitCastExpr` -/
  | implicitCast (type : Str) (sub : TypedExpr)
  /-- `CStyleCastExpr` -/
  | cStyleCast (type : Str) (sub : TypedExpr)
  /-- `DeclRefExpr`; is it an `EnumConstantDecl` -/
  | declRef (type : Str) (enumConstant : Bool)
  /-- `CallExpr` and its subclasses -/
  | call (type : Str)
  /-- `CharacterLiteral` -/
  | charLit (type : Str)
  /-- `IntegerLiteral` -/
  | intLit (type : Str)
  /-- `FloatingLiteral` -/
  | floatLit (type : Str)
  /-- `ObjCBoolLiteralExpr` -/
  | objcBoolLit (type : Str)
  | other (type : Str)
  deriving DecidableEq, Repr

/-- `getType().getAsString()` -/
def TypedExpr.type : TypedExpr → Str
  | .paren t _ | .implicitCast t _ | .cStyleCast t _ | .declRef t _ | .call t | .charLit t
  | .intLit t | .floatLit t | .objcBoolLit t | .other t => t

/-- What is read of an `ObjCMessageExpr`. -/
structure TypedMessage where
  /-- name of `getReceiverInterface()` -/
  interface : Option Str
  /-- `getInstanceReceiver()` -/
  receiver : Option TypedExpr
  selector : Str
  args : List TypedExpr
  deriving DecidableEq, Repr

/-- `std::map::find`: the value of the key. -/
def mapFind (m : List (Str × Str)) (key : Str) : Option Str := (m.find? fun e => e.1 = key).map Prod.snd

/-! ## `ObjCBoxedExpressionsRule.cpp` -/

/-- `ObjCBoxedExpressionsRule.cpp:49-58`, `methodArgTypeMap`. -/
def boxedArgTypes : List (Str × Str) :=
  [("numberWithChar:".toList, "char".toList),
   ("numberWithInt:".toList, "int".toList),
   ("numberWithUnsignedInt:".toList, "unsigned int".toList),
   ("numberWithLong:".toList, "long".toList),
   ("numberWithUnsignedLong:".toList, "unsigned long".toList),
   ("numberWithLongLong:".toList, "long long".toList),
   ("numberWithUnsignedLongLong:".toList, "unsigned long long".toList),
   ("numberWithFloat:".toList, "float".toList),
   ("numberWithDouble:".toList, "double".toList)]

/-- `ObjCBoxedExpressionsRule.cpp:11-18`, `isParenExprBox`. -/
def isParenExprBox (e : TypedExpr) (selector : Str) (types : List (Str × Str)) : Bool :=
  match e with
  | .paren t _ => mapFind types selector == some t
  | _ => false

/-- `ObjCBoxedExpressionsRule.cpp:20-30`, `isObjCBoolBox`. -/
def isObjCBoolBox (e : TypedExpr) (selector : Str) : Bool :=
  match e with
  | .implicitCast t (.paren _ _) => selector == "numberWithBool:".toList && t == "BOOL".toList
  | _ => false

/-- `ObjCBoxedExpressionsRule.cpp:32-42`, `isEnumConstantBox`. -/
def isEnumConstantBox (e : TypedExpr) (selector : Str) : Bool :=
  match e with
  | .declRef t enumConstant => selector == "numberWithInt:".toList && t == "int".toList && enumConstant
  | _ => false

/-- `ObjCBoxedExpressionsRule.cpp:44-63`, `isNSNumberBox`. -/
def isNSNumberBox (e : TypedExpr) (selector : Str) : Bool :=
  isParenExprBox e selector boxedArgTypes || isObjCBoolBox e selector || isEnumConstantBox e selector

/-- `ObjCBoxedExpressionsRule.cpp:75` -/
def isCallOrParen : TypedExpr → Bool
  | .call _ => true
  | .paren _ _ => true
  | _ => false

/-- `ObjCBoxedExpressionsRule.cpp:65-78`, `isNSStringBox`. -/
def isNSStringBox (e : TypedExpr) (selector : Str) : Bool :=
  match e with
  | .implicitCast t sub =>
    if selector = "stringWithUTF8String:".toList then
      t == "const char *".toList && sub.type == "char *".toList && isCallOrParen sub
    else false
  | _ => false

/-- `ObjCBoxedExpressionsRule.cpp:135-146`, `VisitObjCMessageExpr`. -/
def boxedExpressionVisit (m : TypedMessage) : Bool :=
  match m.interface, m.args with
  | some i, [e] =>
    (i == "NSNumber".toList && isNSNumberBox e m.selector) ||
      (i == "NSString".toList && isNSStringBox e m.selector)
  | _, _ => false

/-! ## `ObjCNSNumberLiteralsRule.cpp` -/

/-- `ObjCNSNumberLiteralsRule.cpp:56-62`, `intSelArgTypeMap`. -/
def intLiteralTypes : List (Str × Str) :=
  [("numberWithInt:".toList, "int".toList),
   ("numberWithUnsignedInt:".toList, "unsigned int".toList),
   ("numberWithLong:".toList, "long".toList),
   ("numberWithUnsignedLong:".toList, "unsigned long".toList),
   ("numberWithLongLong:".toList, "long long".toList),
   ("numberWithUnsignedLongLong:".toList, "unsigned long long".toList)]

/-- `ObjCNSNumberLiteralsRule.cpp:64-66`, `floatSelArgTypeMap`. -/
def floatLiteralTypes : List (Str × Str) :=
  [("numberWithFloat:".toList, "float".toList), ("numberWithDouble:".toList, "double".toList)]

/-- `ObjCNSNumberLiteralsRule.cpp:11-20`, `isCharLiteral`. -/
def isCharLiteral (e : TypedExpr) (selector : Str) : Bool :=
  match e with
  | .implicitCast _ (.charLit _) => selector == "numberWithChar:".toList
  | _ => false

/-- `ObjCNSNumberLiteralsRule.cpp:22-29`, `isLiteralOf<IntegerLiteral>`. -/
def isIntLiteralOf (e : TypedExpr) (selector : Str) (types : List (Str × Str)) : Bool :=
  match e with
  | .intLit t => mapFind types selector == some t
  | _ => false

/-- `ObjCNSNumberLiteralsRule.cpp:22-29`, `isLiteralOf<FloatingLiteral>`. -/
def isFloatLiteralOf (e : TypedExpr) (selector : Str) (types : List (Str × Str)) : Bool :=
  match e with
  | .floatLit t => mapFind types selector == some t
  | _ => false

/-- `ObjCNSNumberLiteralsRule.cpp:31-49`, `isObjCBoolLiteral`. -/
def isObjCBoolLiteral (e : TypedExpr) (selector : Str) : Bool :=
  if selector = "numberWithBool:".toList then
    match e with
    | .objcBoolLit _ => true
    | .paren _ (.cStyleCast t (.intLit _)) => t == "BOOL".toList
    | _ => false
  else false

/-- `ObjCNSNumberLiteralsRule.cpp:51-72`, `canSimplify`. -/
def canSimplifyNumber (e : TypedExpr) (selector : Str) : Bool :=
  isCharLiteral e selector || isIntLiteralOf e selector intLiteralTypes ||
    isFloatLiteralOf e selector floatLiteralTypes || isObjCBoolLiteral e selector

/-- `ObjCNSNumberLiteralsRule.cpp:129-139`, `VisitObjCMessageExpr`. -/
def numberLiteralVisit (m : TypedMessage) : Bool :=
  match m.interface, m.args with
  | some i, [e] => i == "NSNumber".toList && canSimplifyNumber e m.selector
  | _, _ => false

/-! ## `ObjCContainerLiteralsRule.cpp` -/

/-- `ObjCContainerLiteralsRule.cpp:71-75`. -/
def arraySelectors : List Str :=
  ["array".toList, "arrayWithObject:".toList, "arrayWithObjects:count:".toList,
   "arrayWithObjects:".toList]

/-- `ObjCContainerLiteralsRule.cpp:77-82`. -/
def dictionarySelectors : List Str :=
  ["dictionary".toList, "dictionaryWithObject:forKey:".toList,
   "dictionaryWithObjects:forKeys:count:".toList, "dictionaryWithObjectsAndKeys:".toList,
   "dictionaryWithObjects:forKeys:".toList]

/-- `ObjCContainerLiteralsRule.cpp:66-94`, `VisitObjCMessageExpr`. -/
def containerLiteralVisit (m : TypedMessage) : Bool :=
  match m.interface with
  | some i =>
    (i == "NSArray".toList && arraySelectors.contains m.selector) ||
      (i == "NSDictionary".toList && dictionarySelectors.contains m.selector)
  | none => false

/-! ## `ObjCObjectSubscriptingRule.cpp` -/

/-- `ObjCObjectSubscriptingRule.cpp:12-20`, `isArrayGetSelector`. -/
def isArrayGetSelector (e : TypedExpr) (selector : Str) : Bool :=
  e.type == "NSArray *".toList &&
    ["objectAtIndex:".toList, "objectAtIndexedSubscript:".toList].contains selector

/-- `ObjCObjectSubscriptingRule.cpp:22-30`, `isArraySetSelector`. -/
def isArraySetSelector (e : TypedExpr) (selector : Str) : Bool :=
  e.type == "NSMutableArray *".toList &&
    ["replaceObjectAtIndex:withObject:".toList, "setObject:atIndexedSubscript:".toList].contains selector

/-- `ObjCObjectSubscriptingRule.cpp:32-40`, `isDictionaryGetSelector`. -/
def isDictionaryGetSelector (e : TypedExpr) (selector : Str) : Bool :=
  e.type == "NSDictionary *".toList &&
    ["objectForKey:".toList, "objectForKeyedSubscript:".toList].contains selector

/-- `ObjCObjectSubscriptingRule.cpp:42-50`, `isDictionarySetSelector`. -/
def isDictionarySetSelector (e : TypedExpr) (selector : Str) : Bool :=
  e.type == "NSMutableDictionary *".toList &&
    ["setObject:forKey:".toList, "setObject:forKeyedSubscript:".toList].contains selector

/-- `isa<ImplicitCastExpr>` -/
def TypedExpr.isImplicitCast : TypedExpr → Bool
  | .implicitCast _ _ => true
  | _ => false

/-- `ObjCObjectSubscriptingRule.cpp:107-122`, `VisitObjCMessageExpr`. -/
def subscriptingVisit (m : TypedMessage) : Bool :=
  match m.receiver with
  | some e => e.isImplicitCast &&
      (isArrayGetSelector e m.selector || isArraySetSelector e m.selector ||
        isDictionaryGetSelector e m.selector || isDictionarySetSelector e m.selector)
  | none => false

/-- The reported ones of the messages visited: `addViolation` in the visit functions. -/
def reportMessages (visit : TypedMessage → Bool) (ms : List TypedMessage) : List TypedMessage :=
  ms.foldl (fun acc m => if visit m then acc ++ [m] else acc) []

end Oclint
