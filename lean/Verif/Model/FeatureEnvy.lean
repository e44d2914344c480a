import Verif.Model.Basic

/-!
# Feature envy

Models `oclint-rules/rules/design/FeatureEnvyRule.cpp`.  A method is reduced to its name, the owner
of its declaration and the expressions the traversal of its declaration visits, in order.
-/

namespace Oclint

/-- Where an Objective-C method is declared: in a protocol, or elsewhere with the result of
`getClassInterface()`, reduced to the name. -/
inductive MethodOwner where
  | protocol
  | interface (name : Option Str)
  deriving DecidableEq

/-- The receiver of a message (`ObjCMessageExpr::getReceiverKind()`): an instance with the name of
`getReceiverInterface()`, a class with the text of its type, or `super`. -/
inductive Receiver where
  | instance (interface : Option Str)
  | cls (typeText : Str)
  | super
  deriving DecidableEq

/-- What a use of a property refers to: a declared property, or methods that make one; with the owners
of setter and getter, `none` if there is none. -/
inductive PropertyRef where
  | explicit (setter getter : Option MethodOwner)
  | implicit (setter getter : Option MethodOwner)
  deriving DecidableEq

/-- The expressions the analyzer has a `Visit...` method for: a message and whether it is implicit;
a use of an instance variable and the name of its `getContainingInterface()`; a use of a property and
whether it sends the setter message. -/
inductive ObjCUse where
  | message (implicit : Bool) (receiver : Receiver)
  | ivar (containing : Option Str)
  | property (messagingSetter : Bool) (ref : PropertyRef)
  deriving DecidableEq

/-- `FeatureEnvyRule.cpp:93-100`, `getClassInterface` of a possibly missing method. -/
def classInterface : Option MethodOwner → Option Str
  | none => none
  | some .protocol => none
  | some (.interface name) => name

/-- `FeatureEnvyRule.cpp:102-110`, `getSetterInterface`. -/
def setterInterface : PropertyRef → Option Str
  | .explicit setter _ => classInterface setter
  | .implicit setter _ => classInterface setter

/-- `FeatureEnvyRule.cpp:112-120`, `getGetterInterface`. -/
def getterInterface : PropertyRef → Option Str
  | .explicit _ getter => classInterface getter
  | .implicit _ getter => classInterface getter

/-- `FeatureEnvyRule.cpp:122-125`: `++_receiversCount[className]`.  The map is an association list;
a `long` cannot overflow here before 2^63 expressions. -/
def countClassName (counts : List (Str × Nat)) (name : Str) : List (Str × Nat) :=
  match counts with
  | [] => [(name, 1)]
  | (k, n) :: rest => if k = name then (k, n + 1) :: rest else (k, n) :: countClassName rest name

/-- `FeatureEnvyRule.cpp:127-133`. -/
def countInterface (counts : List (Str × Nat)) (interface : Option Str) : List (Str × Nat) :=
  match interface with
  | some name => countClassName counts name
  | none => counts

/-- `FeatureEnvyRule.cpp:37-76` (the `Visit...` methods) and `135-138`. -/
def visitUse (counts : List (Str × Nat)) (use : ObjCUse) : List (Str × Nat) :=
  match use with
  | .message implicit receiver =>
    if implicit then counts
    else
      match receiver with
      | .instance interface => countInterface counts interface
      | .cls text => countClassName counts text
      | .super => counts
  | .ivar containing => countInterface counts containing
  | .property messagingSetter ref =>
    if messagingSetter then countInterface counts (setterInterface ref)
    else countInterface counts (getterInterface ref)

/-- `FeatureEnvyRule.cpp:145-152`. -/
def selfMessages (counts : List (Str × Nat)) (selfName : Str) : Nat :=
  match counts with
  | [] => 0
  | (k, n) :: rest => if k = selfName then n else selfMessages rest selfName

/-- `FeatureEnvyRule.cpp:154-165`.  `order` is the order of iteration of the `unordered_map`. -/
def enviedClasses (order : List (Str × Nat) → List (Str × Nat)) (counts : List (Str × Nat))
    (own : Nat) : List Str :=
  ((order counts).filter fun p => decide (p.2 > own)).map (·.1)

/-- `FeatureEnvyRule.cpp:21-29` and `85-91`, `analyzeObjC`. -/
def analyzeObjC (order : List (Str × Nat) → List (Str × Nat)) (owner : MethodOwner)
    (uses : List ObjCUse) : List Str :=
  match classInterface (some owner) with
  | some selfName =>
    let counts := uses.foldl visitUse []
    enviedClasses order counts (selfMessages counts selfName)
  | none => []

/-- `FeatureEnvyRule.cpp:169-174`. -/
def envyDescription (methodName enviedClass : Str) : Str :=
  "Method ".toList ++ methodName ++ " messages ".toList ++ enviedClass ++ " more than self.".toList

/-- `FeatureEnvyRule.cpp:176-183` and `201-207`, `VisitObjCMethodDecl`: the descriptions of the
violations for a method. -/
def featureEnvyVisit (order : List (Str × Nat) → List (Str × Nat)) (methodName : Str)
    (owner : MethodOwner) (uses : List ObjCUse) : List Str :=
  (analyzeObjC order owner uses).map (envyDescription methodName)

end Oclint
