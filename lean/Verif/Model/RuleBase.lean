import Verif.Model.Basic

/-!
# Which declarations an AST visitor rule is shown

Models `oclint-rules/lib/AbstractASTRuleBase.cpp:49-96` and
`oclint-rules/include/oclint/AbstractASTVisitorRule.h`.
-/

namespace Oclint

/-- `AbstractASTRuleBase.h:12-17`. -/
def LANG_C : BitVec 32 := 1#32 <<< 0
/-- `AbstractASTRuleBase.h:12-17`. -/
def LANG_CXX : BitVec 32 := 1#32 <<< 1
/-- `AbstractASTRuleBase.h:12-17`. -/
def LANG_OBJC : BitVec 32 := 1#32 <<< 2
/-- `AbstractASTRuleBase.h:19-23`. -/
def CUDA_HOST : BitVec 32 := 1#32 <<< 0
/-- `AbstractASTRuleBase.h:19-23`. -/
def CUDA_GLOBAL : BitVec 32 := 1#32 <<< 1

/-- `AbstractASTRuleBase.cpp:49-52`, the default support mask. -/
def defaultSupportedLanguages : BitVec 32 := LANG_C ||| LANG_CXX ||| LANG_OBJC

/-- `AbstractASTRuleBase.cpp:87-90`, the default CUDA mask. -/
def defaultCUDAFunctionAttrs : BitVec 32 := CUDA_HOST

/-- Conversion of a mask test to `bool`. -/
def maskBool (b : BitVec 32) : Bool := b != 0#32

/-- The `clang::LangOptions` that are read. -/
structure LangOpts where
  objC : Bool
  cPlusPlus : Bool
  c99 : Bool
  cuda : Bool
  deriving Repr, DecidableEq

/-- `AbstractASTRuleBase.cpp:69-85`, `isLanguageSupported`, with `supportsC/CXX/ObjC` (54-67). -/
def isLanguageSupported (opts : LangOpts) (supported : BitVec 32) : Bool :=
  if opts.objC then maskBool (LANG_OBJC &&& supported)
  else if opts.cPlusPlus then maskBool (LANG_CXX &&& supported)
  else if opts.c99 then maskBool (LANG_C &&& supported)
  else false

/-- What the traversal reads of a top level declaration. -/
structure TopDecl where
  /-- identity of the declaration -/
  id : Nat
  /-- does it begin at a valid location? -/
  beginValid : Bool
  /-- does it begin in the main file? -/
  inMainFile : Bool
  isFunction : Bool
  hasCUDAGlobal : Bool
  deriving Repr, DecidableEq

/-- `AbstractASTVisitorRule.h:76-81`, `isValidDecl`. -/
def isValidDecl (d : TopDecl) : Bool := d.beginValid && d.inMainFile

/-- What a rule is called with, in order. -/
inductive VisitEvent where
  | setUp
  | traverse (decl : Nat)
  | tearDown
  deriving Repr, DecidableEq

/-- `AbstractASTVisitorRule.h:48-63`, `applyCUDADecl`. -/
def applyCUDADecl (cudaAttrs : BitVec 32) (d : TopDecl) : List VisitEvent :=
  if !isValidDecl d then []
  else if d.isFunction then
    if d.hasCUDAGlobal then
      if maskBool (cudaAttrs &&& CUDA_GLOBAL) then [.traverse d.id] else []
    else if maskBool (cudaAttrs &&& CUDA_HOST) then [.traverse d.id]
    else []
  else [.traverse d.id]

/-- `AbstractASTVisitorRule.h:37-46`, `applyCUDA`. -/
def applyCUDA (cudaAttrs : BitVec 32) (tu : List TopDecl) : List VisitEvent :=
  tu.foldl (fun acc d => acc ++ applyCUDADecl cudaAttrs d) [.setUp] ++ [.tearDown]

/-- `AbstractASTVisitorRule.h:22-35`, `applyC`. -/
def applyC (opts : LangOpts) (supported cudaAttrs : BitVec 32) (tu : List TopDecl) :
    List VisitEvent :=
  if !isLanguageSupported opts supported || !maskBool (cudaAttrs &&& CUDA_HOST) then []
  else
    tu.foldl (fun acc d => if isValidDecl d then acc ++ [.traverse d.id] else acc) [.setUp]
      ++ [.tearDown]

/-- `AbstractASTVisitorRule.h:14-20`, `apply`. -/
def visitorApply (opts : LangOpts) (supported cudaAttrs : BitVec 32) (tu : List TopDecl) :
    List VisitEvent :=
  if opts.cuda then applyCUDA cudaAttrs tu else applyC opts supported cudaAttrs tu

end Oclint
