import Verif.Model.RulesControl
import Verif.Model.RuleBase

/-!
# Rules about C++ classes, and the CUDA rule
-/

namespace Oclint

/-- `clang::AccessSpecifier`. -/
inductive Access where
  | pub | prot | priv | none
  deriving DecidableEq, Repr

/-- What is read of a `clang::CXXDestructorDecl`. -/
structure Destructor where
  isVirtual : Bool
  access : Access
  deriving DecidableEq, Repr

mutual
/-- What is read of a `clang::CXXRecordDecl`. `destructor` is `getDestructor()`. -/
inductive CxxClass where
  | mk (name : Str) (hasDefinition polymorphic : Bool) (destructor : Option Destructor)
      (bases : CxxBases)
/-- The base specifiers of a class. -/
inductive CxxBases where
  | nil
  /-- a base whose type is no class, for example a template parameter:
  `getAsCXXRecordDecl()` is null -/
  | unknown (access : Access) (rest : CxxBases)
  | base (access : Access) (cls : CxxClass) (rest : CxxBases)
end

/-- The parts of a class. -/
def CxxClass.name : CxxClass → Str
  | .mk n _ _ _ _ => n
/-- The parts of a class. -/
def CxxClass.hasDefinition : CxxClass → Bool
  | .mk _ d _ _ _ => d
/-- The parts of a class. -/
def CxxClass.polymorphic : CxxClass → Bool
  | .mk _ _ p _ _ => p
/-- The parts of a class. -/
def CxxClass.destructor : CxxClass → Option Destructor
  | .mk _ _ _ d _ => d
/-- The parts of a class. -/
def CxxClass.bases : CxxClass → CxxBases
  | .mk _ _ _ _ b => b

/-! ## `oclint-rules/rules/convention/BaseClassDestructorShouldBeVirtualOrProtectedRule.cpp` -/

/-- `BaseClassDestructorShouldBeVirtualOrProtectedRule.cpp:6-16`,
`hasVirtualOrProtectedDestructor`. -/
def hasVirtualOrProtectedDestructor (c : CxxClass) : Bool :=
  match c.destructor with
  | none => false
  | some d => d.isVirtual || d.access == .prot

/-- `BaseClassDestructorShouldBeVirtualOrProtectedRule.cpp:18-22`, `getMessageViolation`. -/
def baseDestructorMessage (base child : CxxClass) : Str :=
  "~".toList ++ base.name ++ "() should be protected or virtual according to class ".toList ++
    child.name

/-- `BaseClassDestructorShouldBeVirtualOrProtectedRule.cpp:123-149`, `check`: the reported classes
with the messages. -/
def checkBases (child : CxxClass) : CxxBases → List (CxxClass × Str)
  | .nil => []
  | .unknown _ rest => checkBases child rest
  | .base access (.mk n d p dtor bases) rest =>
    if access ≠ .pub then checkBases child rest
    else if !d then checkBases child rest
    else
      (if !hasVirtualOrProtectedDestructor (.mk n d p dtor bases) then
        [(.mk n d p dtor bases, baseDestructorMessage (.mk n d p dtor bases) child)] else []) ++
      ((if !p then checkBases child bases else []) ++ checkBases child rest)

/-- `BaseClassDestructorShouldBeVirtualOrProtectedRule.cpp:109-118`, `VisitCXXRecordDecl`. -/
def baseDestructorVisit (c : CxxClass) : List (CxxClass × Str) :=
  if c.hasDefinition && c.polymorphic then checkBases c c.bases else []

/-! ## `oclint-rules/rules/convention/DestructorOfVirtualClassRule.cpp` -/

/-- `DestructorOfVirtualClassRule.cpp:6-11`, `hasVirtualDestructor`. -/
def hasVirtualDestructor (c : CxxClass) : Bool :=
  match c.destructor with
  | none => false
  | some d => d.isVirtual

/-- `DestructorOfVirtualClassRule.cpp:13-17`, `getMessageViolation`. -/
def virtualClassMessage (c : CxxClass) : Str :=
  "class ".toList ++ c.name ++ " should have a virtual destructor ~".toList ++ c.name ++ "()".toList

/-- `DestructorOfVirtualClassRule.cpp:69-79`, `VisitCXXRecordDecl`. -/
def virtualClassVisit (c : CxxClass) : List (CxxClass × Str) :=
  if c.hasDefinition && c.polymorphic && !hasVirtualDestructor c then [(c, virtualClassMessage c)]
  else []

/-! ## Members of classes

`oclint-rules/lib/AbstractASTMatcherRule.cpp:10-32`: every node is handed to every matcher, and the
rule's callback runs for each match.  Clang's matchers are modelled by predicates. -/

/-- What the matchers look at. -/
inductive MemberDecl where
  /-- a `VarDecl` -/
  | var (id : Nat) (access : Access) (isStaticDataMember : Bool)
  /-- a `CXXMethodDecl`; per parameter whether it has a default argument -/
  | method (id : Nat) (access : Access) (isStatic isVirtual : Bool) (defaultArgs : List Bool)
  /-- any other declaration -/
  | other (id : Nat)
  deriving DecidableEq, Repr

/-- `AbstractASTMatcherRule.cpp:22-26`, `VisitDecl`, with the callback that reports the bound
node. -/
def matchDecl (matchers : List (MemberDecl → Bool)) (d : MemberDecl) : List MemberDecl :=
  (matchers.filter fun m => m d).map fun _ => d

/-- `oclint-rules/rules/design/AvoidDefaultArgumentsOnVirtualMethodsRule.cpp:87-92`,
`setUpMatcher`. -/
def defaultArgumentsMatchers : List (MemberDecl → Bool) :=
  [fun d => match d with
    | .method _ _ _ isVirtual args => isVirtual && args.any id
    | _ => false]

/-- `oclint-rules/rules/design/AvoidPrivateStaticMembersRule.cpp:81-85`, `setUpMatcher`. -/
def privateStaticMatchers : List (MemberDecl → Bool) :=
  [fun d => match d with
    | .var _ access isStaticDataMember => access == .priv && isStaticDataMember
    | _ => false,
   fun d => match d with
    | .method _ access isStatic _ _ => access == .priv && isStatic
    | _ => false]

/-- `AvoidDefaultArgumentsOnVirtualMethodsRule.cpp:81-85` over the declarations visited. -/
def defaultArgumentsRule (ds : List MemberDecl) : List MemberDecl :=
  ds.flatMap (matchDecl defaultArgumentsMatchers)

/-- `AvoidPrivateStaticMembersRule.cpp:69-79` over the declarations visited. -/
def privateStaticRule (ds : List MemberDecl) : List MemberDecl :=
  ds.flatMap (matchDecl privateStaticMatchers)

/-! ## Branch divergence (`oclint-rules/rules/cuda/CudaBranchDivergenceRule.cpp`) -/

/-- `CudaBranchDivergenceRule.cpp:73-81`, `VisitIfStmt`. -/
def branchDivergenceVisit (s : Stmt) : List Stmt :=
  match s with
  | .ifS p c t (some e) => [.ifS p c t (some e)]
  | _ => []

/-- The rule over a source file: `visitorApply` with `supportedCUDAFunctionAttrs()`
(`CudaBranchDivergenceRule.cpp:31-34`); `body` is the tree in a top level declaration. -/
def branchDivergenceRule (opts : LangOpts) (tu : List TopDecl) (body : Nat → Stmt) : List Stmt :=
  (visitorApply opts defaultSupportedLanguages CUDA_GLOBAL tu).flatMap fun e =>
    match e with
    | .traverse id => reportOver branchDivergenceVisit (body id)
    | _ => []

end Oclint
