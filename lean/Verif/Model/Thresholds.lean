import Verif.Model.Metrics
import Verif.Model.Options
import Verif.Model.Text

/-!
# Rules that compare a metric with a configured threshold

Models `oclint-rules/rules/size/*.cpp` and `oclint-rules/rules/naming/LongVariableNameRule.cpp`.
A rule is modelled by what its `Visit...` methods report for the constructs the AST traversal
hands to it, in order: pairs of the construct given to `addViolation` and the description.  What
`addViolation` then does (suppression, position) is `Model/Suppress.lean`.
-/

namespace Oclint

/-- An `ObjCMethodDecl` or `FunctionDecl`, reduced to what the size rules look at: the statements
and expressions below it, `getBody()`, `param_size()`, the presumed lines at which the body starts
and ends, whether it is a `CXXMethodDecl`, and whether its lexical context is a `CXXRecordDecl`. -/
structure MethodDecl where
  parts : List Stmt
  body : Option Stmt
  params : Nat
  startLine : Nat
  endLine : Nat
  cxxMethod : Bool
  inRecord : Bool

/-- The kinds of class-like declarations with a `Visit...` method in the size rules. -/
inductive ClassKind where
  | objcInterface
  | objcCategory
  | objcProtocol
  | objcImpl
  | cxxRecord
  deriving DecidableEq, Repr

/-- A class-like declaration: kind, presumed first and last line, number of instance variables or
fields, number of methods. -/
structure ClassDecl where
  kind : ClassKind
  startLine : Nat
  endLine : Nat
  fields : Nat
  methods : Nat

/-- The constructs the size and naming rules are called for. -/
inductive Construct where
  | method (d : MethodDecl)
  | cls (d : ClassDecl)
  | block (body : List Stmt)
  | variable (name : Str)

/-- Conversion of an integer to a 32-bit `unsigned`. -/
def toUInt32 (z : Int) : Int := z % 4294967296

/-- `oclint-rules/lib/util/ASTUtil.cpp:122-130`, `getLineCount`: unsigned arithmetic, converted to
`int`. -/
def getLineCount (startLine endLine : Nat) : Int :=
  toInt32 ((endLine : Int) - startLine + 1)

/-- `ASTUtil.cpp:80-88`, `isCppMethodDeclLocatedInCppRecordDecl` of
`dyn_cast<CXXMethodDecl>(decl)`. -/
def isCppMethodDeclLocatedInCppRecordDecl (d : MethodDecl) : Bool :=
  if d.cxxMethod then !d.body.isSome || d.inRecord else false

/-- `CyclomaticComplexityRule.cpp:20-32`, `applyDecl`. -/
def cyclomaticApply (cfg : Configurations) (d : MethodDecl) : Outcome (Option Str) := do
  let ccn ← cyclomaticComplexity d.parts
  let (threshold, _) ← cfg.intForKey "CYCLOMATIC_COMPLEXITY".toList 10
  if ccn > threshold then
    pure (some ("Cyclomatic Complexity Number ".toList ++ toStringInt ccn
      ++ " exceeds limit of ".toList ++ toStringInt threshold))
  else pure none

/-- `NPathComplexityRule.cpp:20-38`, `applyDecl`. -/
def npathApply (cfg : Configurations) (d : MethodDecl) : Outcome (Option Str) :=
  match d.body with
  | some (.compound b) => do
    let npath ← npathComplexity (.compound b)
    let (threshold, _) ← cfg.intForKey "NPATH_COMPLEXITY".toList 200
    if npath > threshold then
      pure (some ("NPath Complexity Number ".toList ++ toStringInt npath
        ++ " exceeds limit of ".toList ++ toStringInt threshold))
    else pure none
  | _ => pure none

/-- `NcssMethodCountRule.cpp:14-24`, `applyDecl`. -/
def ncssApply (cfg : Configurations) (d : MethodDecl) : Outcome (Option Str) := do
  let ncss ← ncssCount d.body
  let (threshold, _) ← cfg.intForKey "NCSS_METHOD".toList 30
  if ncss > threshold then
    pure (some ("Method of ".toList ++ toStringInt ncss
      ++ " non-commenting source statements exceeds limit of ".toList ++ toStringInt threshold))
  else pure none

/-- `NestedBlockDepthRule.cpp:69-81`, `VisitCompoundStmt`. -/
def depthApply (cfg : Configurations) (b : List Stmt) : Outcome (Option Str) := do
  let depth ← stmtDepth (.compound b)
  let (threshold, _) ← cfg.intForKey "NESTED_BLOCK_DEPTH".toList 5
  if depth > threshold then
    pure (some ("Block depth of ".toList ++ toStringInt depth
      ++ " exceeds limit of ".toList ++ toStringInt threshold))
  else pure none

/-- `LongMethodRule.cpp:14-29`, `applyDecl`. -/
def longMethodApply (cfg : Configurations) (d : MethodDecl) : Outcome (Option Str) :=
  if d.body.isSome && !isCppMethodDeclLocatedInCppRecordDecl d then do
    let length := getLineCount d.startLine d.endLine
    let (threshold, _) ← cfg.intForKey "LONG_METHOD".toList 50
    if length > threshold then
      pure (some ("Method with ".toList ++ toStringInt length
        ++ " lines exceeds limit of ".toList ++ toStringInt threshold))
    else pure none
  else pure none

/-- `LongClassRule.cpp:16-25`, `applyDecl`. -/
def longClassApply (threshold : Int) (d : ClassDecl) (descriptionPrefix : Str) : Option Str :=
  let length := getLineCount d.startLine d.endLine
  if length > threshold then
    some (descriptionPrefix ++ " with ".toList ++ toStringInt length
      ++ " lines exceeds limit of ".toList ++ toStringInt threshold)
  else none

/-- `LongClassRule.cpp:84-117`, the `Visit...` methods. -/
def longClassVisit (threshold : Int) (d : ClassDecl) : Option Str :=
  match d.kind with
  | .objcInterface => longClassApply threshold d "Objective-C interface".toList
  | .objcCategory => longClassApply threshold d "Objective-C category".toList
  | .objcProtocol => longClassApply threshold d "Objective-C protocol".toList
  | .objcImpl => longClassApply threshold d "Objective-C implementation".toList
  | .cxxRecord => longClassApply threshold d "C++ class".toList

/-- `TooManyFieldsRule.cpp:77-99`, the `Visit...` methods. -/
def fieldsVisit (threshold : Int) (d : ClassDecl) : Option Str :=
  let fieldCount := toInt32 d.fields
  match d.kind with
  | .objcInterface =>
    if fieldCount > threshold then
      some ("Objective-C interface with ".toList ++ toStringInt fieldCount
        ++ " fields exceeds limit of ".toList ++ toStringInt threshold)
    else none
  | .cxxRecord =>
    if fieldCount > threshold then
      some ("C++ class with ".toList ++ toStringInt fieldCount
        ++ " fields exceeds limit of ".toList ++ toStringInt threshold)
    else none
  | _ => none

/-- `TooManyMethodsRule.cpp:85-107`, the `Visit...` methods. -/
def methodsVisit (threshold : Int) (d : ClassDecl) : Option Str :=
  let methodCount := toInt32 d.methods
  match d.kind with
  | .objcImpl =>
    if methodCount > threshold then
      some ("Objective-C implementation with ".toList ++ toStringInt methodCount
        ++ " methods exceeds limit of ".toList ++ toStringInt threshold)
    else none
  | .cxxRecord =>
    if methodCount > threshold then
      some ("C++ class with ".toList ++ toStringInt methodCount
        ++ " methods exceeds limit of ".toList ++ toStringInt threshold)
    else none
  | _ => none

/-- `TooManyParametersRule.cpp:15-25`, `applyDecl`; the threshold is an `unsigned`. -/
def parametersApply (threshold : Int) (d : MethodDecl) : Option Str :=
  let numOfParams := toUInt32 d.params
  if d.body.isSome && decide (numOfParams > threshold) then
    some ("Method with ".toList ++ toStringInt (toInt32 numOfParams)
      ++ " parameters exceeds limit of ".toList ++ toStringInt (toInt32 threshold))
  else none

/-- `LongVariableNameRule.cpp:68-72`: abbreviation of the name. -/
def longNameShown (name : Str) (nameLength threshold : Int) : Outcome Str := do
  let limit ← addInt threshold 10
  if nameLength > limit then do
    let upto ← addInt threshold 3
    let first ← substr name 0 (toSizeT upto)
    let last ← substr name (toSizeT ((name.length : Int) - 3)) name.length
    pure (first ++ "...".toList ++ last)
  else pure name

/-- `LongVariableNameRule.cpp:61-80`, `VisitVarDecl`. -/
def longNameVisit (cfg : Configurations) (name : Str) : Outcome (Option Str) := do
  let nameLength := toInt32 name.length
  let (threshold, _) ← cfg.intForKey "LONG_VARIABLE_NAME".toList 20
  if nameLength > threshold then do
    let shown ← longNameShown name nameLength threshold
    pure (some ("Length of variable name `".toList ++ shown ++ "` is ".toList
      ++ toStringInt nameLength ++ ", which is longer than the threshold of ".toList
      ++ toStringInt threshold))
  else pure none

/-- The rules of this file. -/
inductive MetricRule where
  | cyclomatic
  | npath
  | ncss
  | depth
  | longMethod
  | longClass
  | fields
  | methods
  | parameters
  | longName
  deriving DecidableEq, Repr

/-- What a rule reports for one construct, given what `setUp` stored in `_threshold`
(`LongClassRule.cpp`, `TooManyFieldsRule.cpp`, `TooManyMethodsRule.cpp`,
`TooManyParametersRule.cpp`); constructs without a `Visit...` method in the rule are ignored. -/
def metricVisit (cfg : Configurations) (stored : Int) : MetricRule → Construct →
    Outcome (Option Str)
  | .cyclomatic, .method d => cyclomaticApply cfg d
  | .npath, .method d => npathApply cfg d
  | .ncss, .method d => ncssApply cfg d
  | .depth, .block b => depthApply cfg b
  | .longMethod, .method d => longMethodApply cfg d
  | .longClass, .cls d => pure (longClassVisit stored d)
  | .fields, .cls d => pure (fieldsVisit stored d)
  | .methods, .cls d => pure (methodsVisit stored d)
  | .parameters, .method d => pure (parametersApply stored d)
  | .longName, .variable n => longNameVisit cfg n
  | _, _ => pure none

/-- `setUp` of the rules (`LongClassRule.cpp:79-82`, `TooManyFieldsRule.cpp:72-75`,
`TooManyMethodsRule.cpp:80-83`, `TooManyParametersRule.cpp:90-93`); 0 stands for the missing
member of the rules without one. -/
def metricSetUp (cfg : Configurations) : MetricRule → Outcome Int
  | .longClass => do let (t, _) ← cfg.intForKey "LONG_CLASS".toList 1000; pure t
  | .fields => do let (t, _) ← cfg.intForKey "TOO_MANY_FIELDS".toList 20; pure t
  | .methods => do let (t, _) ← cfg.intForKey "TOO_MANY_METHODS".toList 30; pure t
  | .parameters => do let (t, _) ← cfg.intForKey "TOO_MANY_PARAMETERS".toList 10; pure (toUInt32 t)
  | _ => pure 0

/-- The visits of a traversal one after another. -/
def visitAll (visit : Construct → Outcome (Option Str)) :
    List Construct → Outcome (List (Construct × Str))
  | [] => pure []
  | c :: cs => do
    let o ← visit c
    let rest ← visitAll visit cs
    pure (o.toList.map (fun text => (c, text)) ++ rest)

/-- A whole application of the rule: `setUp`, then the traversal
(`AbstractASTVisitorRule.h`, `apply`). -/
def metricRule (cfg : Configurations) (rule : MetricRule) (constructs : List Construct) :
    Outcome (List (Construct × Str)) := do
  let stored ← metricSetUp cfg rule
  visitAll (metricVisit cfg stored rule) constructs

end Oclint
