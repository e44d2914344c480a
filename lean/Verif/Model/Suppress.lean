import Verif.Model.Results

/-!
# Suppression of violations

Models `oclint-rules/lib/helper/AttributeHelper.cpp`, `SuppressHelper.cpp`, `EnforceHelper.cpp` and
`oclint-rules/lib/AbstractASTRuleBase.cpp`.

Not modelled: clang's parent map, comment list and source manager; they are the fields of
`ParentMap` and `SourceUnit`.
-/

namespace Oclint

/-! ## Annotations -/

/-- `std::string::find(c, from)`. -/
def findCharFrom (c : Char) (s : Str) (start : Nat) : Option Nat :=
  (List.range s.length).find? fun i => decide (start ≤ i) && decide (s[i]? = some c)

/-- `AttributeHelper.cpp:8-35`, `attributeHasAnnotation` with a comment pointer.  `none` is the
result `false`; `some c` is `true`, where `c` is the comment if one was assigned. -/
def attributeHasAnnotation (annotation attributeName : Str) : Option (Option Str) :=
  if findCharFrom '[' attributeName 0 = none then
    if attributeName = annotation then some none else none
  else if annotation.length < attributeName.length ∨
      ¬ (annotation.take attributeName.length = attributeName) then none
  else
    match findCharFrom '[' annotation attributeName.length with
    | some commentStart =>
      if annotation.getLast? = some ']' then
        some (some ((annotation.drop (commentStart + 1)).take (annotation.length - commentStart - 2)))
      else some none
    | none => some none

/-- Where an Objective-C method is declared (`getDeclContext`, `getClassInterface`). -/
inductive MethodContext where
  /-- an `ObjCCategoryDecl` -/
  | category
  /-- an `ObjCProtocolDecl`; the annotations of what `lookupMethod` finds, if anything -/
  | protocol (lookup : Option (List Str))
  /-- a class whose interface is visible -/
  | classWithInterface
  /-- no class interface -/
  | noInterface
  deriving Repr, DecidableEq

/-- What suppression reads of a `clang::Decl`. -/
inductive DeclInfo where
  /-- any declaration that is not an Objective-C method; its annotation attributes -/
  | plain (annotations : List Str)
  /-- an Objective-C method: its annotations, `isPropertyAccessor()`, the annotations of
  `findPropertyDecl()` (`none` for null), where it is declared, and per visible category of its
  interface the method with the same selector (`none` for null) -/
  | method (annotations : List Str) (isAccessor : Bool) (property : Option (List Str))
      (ctx : MethodContext) (categoryMethods : List (Option DeclInfo))

/-- The declaration's own annotation attributes. -/
def DeclInfo.annotations : DeclInfo → List Str
  | .plain a => a
  | .method a _ _ _ _ => a

/-- `AttributeHelper.cpp:37-63`, `declHasAttribute`; `none` stands for a null declaration.  Result
as in `attributeHasAnnotation`. -/
def declHasAttribute (annotations : Option (List Str)) (attributeName : Str) :
    Option (Option Str) :=
  match annotations with
  | none => none
  | some anns => anns.findSome? fun a => attributeHasAnnotation a attributeName

/-- `AttributeHelper.cpp:65-70`, `declHasOCLintAttribute`. -/
def declHasOCLintAttribute (annotations : Option (List Str)) (attributeName : Str) :
    Option (Option Str) :=
  declHasAttribute annotations ("oclint:".toList ++ attributeName)

/-- `AttributeHelper.cpp:72-78`, `baseDeclHasActionAttributeImpl`; `rule` is the rule's
`attributeName()`, which is its name by default (`RuleBase.cpp:11-14`). -/
def baseDeclHasActionAttribute (annotations : Option (List Str)) (action rule : Str) :
    Option (Option Str) :=
  declHasOCLintAttribute annotations (action ++ "[".toList ++ rule ++ "]".toList)

mutual

/-- `AttributeHelper.cpp:80-151`: `declHasActionAttribute`, `objCMethodDeclHasActionAttributeImpl`
and `objCMethodDeclHasAttributeFromCategory`. -/
def declHasActionAttribute (action rule : Str) : DeclInfo → Option (Option Str)
  | .plain anns => baseDeclHasActionAttribute (some anns) action rule
  | .method anns isAccessor property ctx cats =>
    match baseDeclHasActionAttribute (some anns) action rule with
    | some c => some c
    | none =>
      match if isAccessor then baseDeclHasActionAttribute property action rule else none with
      | some c => some c
      | none =>
        match ctx with
        | .protocol lookup => baseDeclHasActionAttribute lookup action rule
        | .category => none
        | .noInterface => none
        | .classWithInterface => categoriesHaveActionAttribute action rule cats

/-- The loop of `objCMethodDeclHasAttributeFromCategory`, `AttributeHelper.cpp:96-105`. -/
def categoriesHaveActionAttribute (action rule : Str) : List (Option DeclInfo) → Option (Option Str)
  | [] => none
  | none :: rest => categoriesHaveActionAttribute action rule rest
  | some d :: rest =>
    match declHasActionAttribute action rule d with
    | some c => some c
    | none => categoriesHaveActionAttribute action rule rest

end

/-- `EnforceHelper.cpp:5-10`, `declHasEnforceAttribute`. -/
def declHasEnforceAttribute (d : DeclInfo) (rule : Str) : Option (Option Str) :=
  declHasActionAttribute "enforce".toList rule d

/-- `SuppressHelper.cpp:16-23`, `markedAsSuppress`; `rule = none` is a null rule. -/
def markedAsSuppress (d : DeclInfo) (rule : Option Str) : Bool :=
  match rule with
  | none => false
  | some r =>
    (declHasOCLintAttribute (some d.annotations) "suppress".toList).isSome
      || (declHasActionAttribute "suppress".toList r d).isSome

/-! ## Walking the parents -/

/-- The kinds of nodes the parent map returns. -/
inductive NodeKind where
  | decl (d : DeclInfo)
  | stmt
  /-- type locations, initialisers and other nodes that are neither -/
  | other

/-- `ASTContext::getParents`.  Parents of a node are never among its descendants; numbering nodes
from the root outwards this is `acyclic`. -/
structure ParentMap where
  kind : Nat → NodeKind
  parents : Nat → List Nat
  acyclic : ∀ n, ∀ p ∈ parents n, p < n

/-- `SuppressHelper.cpp:25-51`, `markedParentsAsSuppress`. -/
def markedParentsAsSuppress (pm : ParentMap) (rule : Option Str) (node : Nat) : Bool :=
  match _h : pm.parents node with
  | [] => false
  | p :: _ =>
    match pm.kind p with
    | .decl d => if markedAsSuppress d rule then true else markedParentsAsSuppress pm rule p
    | .stmt => markedParentsAsSuppress pm rule p
    | .other => false
termination_by node
decreasing_by
  all_goals exact pm.acyclic node p (by rw [_h]; simp)

/-- `SuppressHelper.cpp:53-61`, `shouldSuppress` of a declaration or statement. -/
def shouldSuppressNode (pm : ParentMap) (rule : Option Str) (node : Nat) : Bool :=
  match pm.kind node with
  | .decl d => markedAsSuppress d rule || markedParentsAsSuppress pm rule node
  | _ => markedParentsAsSuppress pm rule node

/-! ## Line and range based suppression -/

/-- A declaration met while traversing the unit, with its first and last presumed line. -/
structure DeclRange where
  decl : DeclInfo
  startLine : Int
  endLine : Int

/-- What suppression and line rules read of an `ASTContext`. -/
structure SourceUnit where
  /-- `getMainFilePath` -/
  mainPath : Str
  /-- comments of the main file, `none` if there is no map: raw text and presumed begin line; an
  entry may be null -/
  comments : Option (List (Option (Str × Int)))
  /-- top level declarations: whether they begin at a valid location of the main file, and the
  declarations `RecursiveASTVisitor` visits inside -/
  topDecls : List (Bool × List DeclRange)
  /-- contents of the main file -/
  buffer : Str

/-- Is `pat` somewhere in `s`? (`StringRef::find(pat) != npos`) -/
def containsStr (s pat : Str) : Bool :=
  (List.range (s.length + 1)).any fun i => pat.isPrefixOf (s.drop i)

/-- Matching `" *OCLINT"`, ignoring case, at the beginning. -/
def matchBlanksOCLINT : Str → Bool
  | [] => false
  | c :: cs =>
    if c = ' ' then matchBlanksOCLINT cs
    else decide (((c :: cs).take 6).map Char.toLower = "oclint".toList)

/-- `std::regex_search` of `"//! *OCLINT"` ignoring case (`SuppressHelper.cpp:143-146`). -/
def regexMarker (s : Str) : Bool :=
  (List.range (s.length + 1)).any fun i =>
    "//!".toList.isPrefixOf (s.drop i) && matchBlanksOCLINT (s.drop (i + 3))

/-- The platform dependent test of `SuppressHelper.cpp:142-150`. -/
def hasMarker (apple : Bool) (text : Str) : Bool :=
  if apple then regexMarker text else containsStr text "//!OCLINT".toList

/-- Body of the comment loop `SuppressHelper.cpp:131-158`; sets of `int` are lists. -/
def commentStep (apple : Bool) (acc : List Int) : Option (Str × Int) → List Int
  | none => acc
  | some (text, line) => if hasMarker apple text then acc ++ [line] else acc

/-- The comment loop `SuppressHelper.cpp:131-158`. -/
def commentLines (apple : Bool) (u : SourceUnit) : List Int :=
  match u.comments with
  | none => []
  | some cs => cs.foldl (commentStep apple) []

/-- `SuppressHelper.cpp:73-107`, `DeclAnnotationRangeCollector::collect`. -/
def collectRanges (u : SourceUnit) (rule : Option Str) : List (Int × Int) :=
  u.topDecls.foldl
    (fun acc top =>
      if top.1 then
        top.2.foldl
          (fun acc d => if markedAsSuppress d.decl rule then acc ++ [(d.startLine, d.endLine)] else acc)
          acc
      else acc)
    []

/-- The two static maps `SuppressHelper.cpp:117` and `170`, keyed by main file path.  The helper
library is static, so each rule library has maps of its own. -/
structure SuppressCache where
  lines : Str → Option (List Int)
  ranges : Str → Option (List (Int × Int))

/-- Empty static maps. -/
def SuppressCache.empty : SuppressCache := ⟨fun _ => none, fun _ => none⟩

/-- `SuppressHelper.cpp:121-167`, `lineBasedShouldSuppress`. -/
def lineBasedShouldSuppress (apple : Bool) (st : SuppressCache) (u : SourceUnit) (beginLine : Int) :
    Bool × SuppressCache :=
  match st.lines u.mainPath with
  | none =>
    let found := commentLines apple u
    (decide (beginLine ∈ found),
      { st with lines := fun p => if p = u.mainPath then some found else st.lines p })
  | some found => (decide (beginLine ∈ found), st)

/-- The loop `SuppressHelper.cpp:188-196`. -/
def inSomeRange (beginLine : Int) : List (Int × Int) → Bool
  | [] => false
  | r :: rs => if beginLine ≥ r.1 ∧ beginLine ≤ r.2 then true else inSomeRange beginLine rs

/-- `SuppressHelper.cpp:172-197`, `rangeBasedShouldSuppress`. -/
def rangeBasedShouldSuppress (st : SuppressCache) (u : SourceUnit) (rule : Option Str)
    (beginLine : Int) : Bool × SuppressCache :=
  match st.ranges u.mainPath with
  | none =>
    let found := collectRanges u rule
    (inSomeRange beginLine found,
      { st with ranges := fun p => if p = u.mainPath then some found else st.ranges p })
  | some found => (inSomeRange beginLine found, st)

/-- `SuppressHelper.cpp:199-203`, `shouldSuppress(beginLine, context, rule)`. -/
def shouldSuppressLine (apple : Bool) (st : SuppressCache) (u : SourceUnit) (rule : Option Str)
    (beginLine : Int) : Bool × SuppressCache :=
  let r := lineBasedShouldSuppress apple st u beginLine
  if r.1 then (true, r.2)
  else
    match rule with
    | none => (false, r.2)
    | some _ => rangeBasedShouldSuppress r.2 u rule beginLine

/-- A call from the rules of one library, with the maps of all libraries: every rule is built as a
library of its own and linked with the static `OCLintHelper` (`oclint-rules/rules/CMakeLists.txt:1-25`,
`oclint-rules/lib/helper/CMakeLists.txt:1-5`). -/
def shouldSuppressFrom (apple : Bool) (maps : Str → SuppressCache) (library : Str) (u : SourceUnit)
    (rule : Option Str) (beginLine : Int) : Bool × (Str → SuppressCache) :=
  let r := shouldSuppressLine apple (maps library) u rule beginLine
  (r.1, fun l => if l = library then r.2 else maps l)

/-! ## Recording violations on nodes -/

/-- File location of a node: presumed positions after macro expansion. -/
structure NodeRange where
  filename : Str
  startLine : Int
  startColumn : Int
  endLine : Int
  endColumn : Int
  deriving Repr, DecidableEq

/-- `AbstractASTRuleBase.cpp:10-29`, `addViolation` of a source range.  The line test is made without
a rule. -/
def addViolationRange (apple : Bool) (st : SuppressCache) (u : SourceUnit) (set : ViolationSet)
    (loc : NodeRange) (rule : RuleId) (message : Str) : ViolationSet × SuppressCache :=
  let r := shouldSuppressLine apple st u none loc.startLine
  if !r.1 then
    (carrierAddViolation set loc.filename loc.startLine loc.startColumn loc.endLine loc.endColumn
      (some rule) message, r.2)
  else (set, r.2)

/-- `AbstractASTRuleBase.cpp:31-47`, `addViolation` of a declaration or statement (`none` is a null
pointer). -/
def addViolationNode (apple : Bool) (pm : ParentMap) (locOf : Nat → NodeRange) (ruleName : Str)
    (st : SuppressCache) (u : SourceUnit) (set : ViolationSet) (node : Option Nat) (rule : RuleId)
    (message : Str) : ViolationSet × SuppressCache :=
  match node with
  | none => (set, st)
  | some n =>
    if !shouldSuppressNode pm (some ruleName) n then
      addViolationRange apple st u set (locOf n) rule message
    else (set, st)

/-- `AbstractSourceCodeReaderRule.cpp:33-47`, `addViolation` of a line rule. -/
def addViolationLine (apple : Bool) (ruleName : Str) (st : SuppressCache) (u : SourceUnit)
    (set : ViolationSet) (startLine startColumn endLine endColumn : Int) (rule : RuleId)
    (message : Str) : ViolationSet × SuppressCache :=
  let r := shouldSuppressLine apple st u (some ruleName) startLine
  if !r.1 then
    (carrierAddViolation set u.mainPath startLine startColumn endLine endColumn (some rule) message,
      r.2)
  else (set, r.2)

end Oclint
