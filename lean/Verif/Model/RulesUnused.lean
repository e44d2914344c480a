import Verif.Model.Registry

/-!
# Unused variables and parameters
-/

namespace Oclint

/-! ## `oclint-rules/rules/unused/UnusedLocalVariableRule.cpp` -/

/-- The separators of `UnusedLocalVariableRule.cpp:23`, in order. -/
def classSeparators : List Char := [',', ';', ' ', '\t', '\x00']

/-- `input[i]`, for `i` up to the length (`std::string::operator[]` gives the terminator there). -/
def charAt (input : Str) (i : Nat) : Char := (input[i]?).getD '\x00'

/-- `UnusedLocalVariableRule.cpp:25-33`: body of the inner loop; `startPos` and `skippedTypes`.  A
`std::set` is a list with the elements inserted. -/
def splitStep (input : Str) (i : Nat) (st : Nat × List Str) (curSep : Char) : Nat × List Str :=
  if charAt input i = curSep then
    (i + 1, if st.1 ≠ i then (input.drop st.1).take (i - st.1) :: st.2 else st.2)
  else st

/-- `UnusedLocalVariableRule.cpp:18-36`, `splitClasses`.  Simplification: positions are no machine
integers. -/
def splitClasses (input : Str) (skippedTypes : List Str) : List Str :=
  ((List.range (input.length + 1)).foldl
    (fun st i => classSeparators.foldl (splitStep input i) st) (0, skippedTypes)).2

/-- `UnusedLocalVariableRule.cpp:57-67`, `resetSkippedTypes`. -/
def resetSkippedTypes (newIgnoreTypes : List Str) : List Str :=
  newIgnoreTypes.foldl (fun types keys => if keys ≠ [] then splitClasses keys types else types) []

/-- `UnusedLocalVariableRule.cpp:39-46`, the constructor. -/
def unusedLocalInit (cfg : Configurations) : Outcome (List Str × Configurations) :=
  match cfg.stringForKey "RAII_DEFAULT_CLASSES".toList "std::lock_guard, std::unique_lock".toList with
  | .ok (defKeys, cfg) =>
    match cfg.stringForKey "RAII_CUSTOM_CLASSES".toList [] with
    | .ok (cusKeys, cfg) => .ok (resetSkippedTypes [defKeys, cusKeys], cfg)
    | .throws w => .throws w
    | .ub => .ub
  | .throws w => .throws w
  | .ub => .ub

/-- What is read of a `clang::VarDecl`. -/
structure LocalVar where
  name : Str
  /-- `getType().getCanonicalType().getAsString()` -/
  canonicalType : Str
  isUsed : Bool
  isReferenced : Bool
  isLocalVarDecl : Bool
  isStaticDataMember : Bool
  /-- if the lexical context is a function: is it no template -/
  inFunction : Option Bool
  deriving DecidableEq, Repr

/-- `UnusedLocalVariableRule.cpp:70-78`, `isInNonTemplateFunction`; the same function is in
`UnusedMethodParameterRule.cpp:16-24`. -/
def isInNonTemplateFunction (inFunction : Option Bool) : Bool :=
  match inFunction with
  | some nonTemplate => nonTemplate
  | none => true

/-- `UnusedLocalVariableRule.cpp:80-107`, `isUnusedLocalVariable` with the functions it calls. -/
def isUnusedLocalVariable (v : LocalVar) : Bool :=
  (!v.isUsed && !v.isReferenced) && v.isLocalVarDecl && v.name ≠ [] && !v.isStaticDataMember &&
    isInNonTemplateFunction v.inFunction

/-- The text from the last blank on (`UnusedLocalVariableRule.cpp:119-124`). -/
def afterLastSpace (s : Str) : Str := (s.reverse.takeWhile fun c => c ≠ ' ').reverse

/-- `UnusedLocalVariableRule.cpp:109-127`, `isRAIIClass`. -/
def isRAIIClass (skippedTypes : List Str) (v : LocalVar) : Bool :=
  skippedTypes.contains (afterLastSpace (v.canonicalType.takeWhile fun c => c ≠ '<'))

/-- `UnusedLocalVariableRule.cpp:129-134`, `description`. -/
def unusedLocalDescription (name : Str) : Str :=
  "The local variable '".toList ++ name ++ "' is unused.".toList

/-- `UnusedLocalVariableRule.cpp:182-190`, `VisitVarDecl`. -/
def unusedLocalVisit (skippedTypes : List Str) (v : LocalVar) : List (LocalVar × Str) :=
  if isUnusedLocalVariable v && !isRAIIClass skippedTypes v then [(v, unusedLocalDescription v.name)]
  else []

/-- The rule, constructed with a configuration, over the variables visited. -/
def unusedLocalRule (cfg : Configurations) (vs : List LocalVar) : Outcome (List (LocalVar × Str)) :=
  match unusedLocalInit cfg with
  | .ok (types, _) => .ok (vs.flatMap (unusedLocalVisit types))
  | .throws w => .throws w
  | .ub => .ub

/-! ## `oclint-rules/rules/unused/UnusedMethodParameterRule.cpp` -/

/-- What a class or protocol, with those it inherits from, declares. -/
structure MethodLookup where
  /-- `lookupInstanceMethod` -/
  instanceMethod : Str → Bool
  /-- `lookupClassMethod` -/
  classMethod : Str → Bool

/-- `getDeclContext()` of an Objective-C method. -/
inductive MethodContainer where
  | interface | protocol | category
  /-- an implementation -/
  | implementation
  deriving DecidableEq, Repr

/-- `ObjCInterfaceDecl`: superclass and protocols. -/
structure InterfaceLookup where
  superClass : Option MethodLookup
  protocols : List MethodLookup

/-- What is read of a `clang::ObjCMethodDecl`. -/
structure ObjcMethod where
  selector : Str
  isInstance : Bool
  container : MethodContainer
  classInterface : Option InterfaceLookup
  hasIBAction : Bool

/-- `oclint-rules/lib/util/ASTUtil.cpp:45-55`, `isObjCMethodDeclLocatedInInterfaceContainer`. -/
def isObjCMethodDeclLocatedInInterfaceContainer (decl : Option ObjcMethod) : Bool :=
  match decl with
  | some m => m.container == .interface || m.container == .protocol || m.container == .category
  | none => false

/-- `ASTUtil.cpp:5-18`, `isObjCMethodDeclaredInSuperClass`. -/
def isObjCMethodDeclaredInSuperClass (decl : Option ObjcMethod) : Bool :=
  match decl with
  | none => false
  | some m =>
    if !isObjCMethodDeclLocatedInInterfaceContainer (some m) then
      match m.classInterface with
      | some i =>
        match i.superClass with
        | some s => s.instanceMethod m.selector
        | none => false
      | none => false
    else false

/-- `ASTUtil.cpp:20-43`, `isObjCMethodDeclaredInProtocol`. -/
def isObjCMethodDeclaredInProtocol (decl : Option ObjcMethod) : Bool :=
  match decl with
  | none => false
  | some m =>
    if isObjCMethodDeclLocatedInInterfaceContainer (some m) then false
    else
      match m.classInterface with
      | some i => i.protocols.any fun p => p.instanceMethod m.selector
      | none => false

/-- `clang::DeclContext`. -/
inductive DeclCtx where
  /-- a `FunctionDecl`: `doesThisDeclarationHaveABody`, `hasBody`, not templated, and for a
  `CXXMethodDecl` whether it is virtual -/
  | function (thisHasBody hasBody nonTemplate : Bool) (methodVirtual : Option Bool)
  /-- `isClosure()`: a block -/
  | block
  | objcMethod (m : ObjcMethod)
  /-- a `CXXRecordDecl` -/
  | record
  | other

/-- `dyn_cast<ObjCMethodDecl>` -/
def DeclCtx.asObjcMethod : DeclCtx → Option ObjcMethod
  | .objcMethod m => some m
  | _ => none

/-- `UnusedMethodParameterRule.cpp:26-30`, `isFunctionDeclaration`. -/
def isFunctionDeclaration : DeclCtx → Bool
  | .function thisHasBody _ _ _ => !thisHasBody
  | _ => false

/-- `UnusedMethodParameterRule.cpp:32-35`, `isBlockDeclaration`. -/
def isBlockDeclaration : DeclCtx → Bool
  | .block => true
  | _ => false

/-- `UnusedMethodParameterRule.cpp:50-54`, `isCppFunctionDeclaration`. -/
def isCppFunctionDeclaration : DeclCtx → Bool
  | .record => true
  | .function _ hasBody _ _ => !hasBody
  | _ => false

/-- `UnusedMethodParameterRule.cpp:56-60`, `isCppOverrideFunction`. -/
def isCppOverrideFunction : DeclCtx → Bool
  | .function _ _ _ (some isVirtual) => isVirtual
  | _ => false

/-- `UnusedMethodParameterRule.cpp:37-48`, `62-70`, `isExistingByContract` of a context. -/
def isExistingByContract (c : DeclCtx) : Bool :=
  isFunctionDeclaration c || isBlockDeclaration c ||
    isObjCMethodDeclLocatedInInterfaceContainer c.asObjcMethod ||
    (isObjCMethodDeclaredInSuperClass c.asObjcMethod ||
      isObjCMethodDeclaredInProtocol c.asObjcMethod) ||
    isCppFunctionDeclaration c || isCppOverrideFunction c

/-- `UnusedMethodParameterRule.cpp:117-121`, `isObjCMethodWithIBActionAttribute` of a context. -/
def isIBActionContext (c : DeclCtx) : Bool :=
  match c.asObjcMethod with
  | some m => m.hasIBAction
  | none => false

/-- The loops `UnusedMethodParameterRule.cpp:72-84` and `97-115` over the lexical contexts, inner
ones first. -/
def someContext (test : DeclCtx → Bool) : List DeclCtx → Bool
  | [] => false
  | c :: outer => if test c then true else someContext test outer

/-- What is read of a `clang::ParmVarDecl`; the lexical contexts, inner ones first. -/
structure Param where
  name : Str
  isUsed : Bool
  hasUnusedAttr : Bool
  contexts : List DeclCtx

/-- The lexical context as a function. -/
def Param.inFunction (p : Param) : Option Bool :=
  match p.contexts with
  | .function _ _ nonTemplate _ :: _ => some nonTemplate
  | _ => none

/-- `UnusedMethodParameterRule.cpp:123-128`, `description`. -/
def unusedParamDescription (name : Str) : Str :=
  "The parameter '".toList ++ name ++ "' is unused.".toList

/-- `UnusedMethodParameterRule.cpp:175-188`, `VisitParmVarDecl` with `86-95`. -/
def unusedParamVisit (p : Param) : List Str :=
  if !p.isUsed && !p.hasUnusedAttr && p.name ≠ [] && isInNonTemplateFunction p.inFunction &&
      !someContext isExistingByContract p.contexts && !someContext isIBActionContext p.contexts then
    [unusedParamDescription p.name]
  else []

end Oclint
