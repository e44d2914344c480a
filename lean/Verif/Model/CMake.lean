import Verif.Model.Scaffold
import Verif.Model.Text

/-!
# Which plug-ins are built

Models `oclint-rules/rules/CMakeLists.txt` with the `CMakeLists.txt` of the categories, and
`oclint-reporters/reporters/CMakeLists.txt`: the part of CMake's language that they and what
`scaffoldRule` and `scaffoldReporter` append to them are written in, the macros as functions, and the
texts themselves.

Simplifications: a text that uses anything else (escapes, bracket arguments, bracket comments, nested
parentheses or references, other commands) counts as an error, whatever CMake would make of it.  So do
macros with the wrong number of arguments.  Wherever a macro is used it is the one of the repository,
whether or not the text has it; CMake's own variables are empty.  What the macros set up for linking is left out.  Letters are
those of ASCII.
-/

namespace Oclint

/-! ## The language -/

/-- An argument of a command as it is written. -/
structure CmArg where
  text : Str
  quoted : Bool
  deriving Repr, DecidableEq

/-- A command; its name in small letters. -/
structure CmCommand where
  name : Str
  args : List CmArg
  deriving Repr, DecidableEq

/-- Where in a text the reader is. -/
inductive CmMode where
  /-- before a command -/
  | between
  /-- behind a command, on its line -/
  | after
  /-- in a comment that is not between arguments -/
  | comment
  /-- in the name of a command -/
  | name (n : Str)
  /-- behind the name of a command -/
  | named (n : Str)
  /-- between arguments -/
  | args (n : Str) (as : List CmArg)
  /-- in a comment between arguments -/
  | argComment (n : Str) (as : List CmArg)
  /-- in an argument without quotes -/
  | word (n : Str) (as : List CmArg) (w : Str)
  /-- in an argument with quotes -/
  | quoted (n : Str) (as : List CmArg) (w : Str)
  | failed
  deriving Repr, DecidableEq

/-- The commands that have been read, and where the reader is. -/
structure CmLex where
  done : List CmCommand
  mode : CmMode
  deriving Repr, DecidableEq

/-- Blanks within a line. -/
def cmBlank (c : Char) : Bool := decide (c = ' ') || decide (c = '\t') || decide (c = '\r')

/-- The first character of the name of a command. -/
def cmNameStart (c : Char) : Bool := c.isAlpha || decide (c = '_')

/-- A further character of it. -/
def cmNameChar (c : Char) : Bool := cmNameStart c || c.isDigit

/-- A character that is not read as part of an argument without quotes here. -/
def cmSpecial (c : Char) : Bool :=
  decide (c = '(') || decide (c = '"') || decide (c = '\\') || decide (c = '[')

/-- Between arguments, and for the character behind one. -/
def cmArgs (done : List CmCommand) (n : Str) (as : List CmArg) (c : Char) : CmLex :=
  if cmBlank c || decide (c = '\n') then ⟨done, .args n as⟩
  else if c = '#' then ⟨done, .argComment n as⟩
  else if c = ')' then ⟨done ++ [⟨n.map Char.toLower, as⟩], .after⟩
  else if c = '"' then ⟨done, .quoted n as []⟩
  else if cmSpecial c then ⟨done, .failed⟩
  else ⟨done, .word n as [c]⟩

/-- One character. -/
def cmStep (s : CmLex) (c : Char) : CmLex :=
  match s.mode with
  | .between =>
    if cmBlank c || decide (c = '\n') then s
    else if c = '#' then ⟨s.done, .comment⟩
    else if cmNameStart c then ⟨s.done, .name [c]⟩
    else ⟨s.done, .failed⟩
  | .after =>
    if c = '\n' then ⟨s.done, .between⟩
    else if cmBlank c then s
    else if c = '#' then ⟨s.done, .comment⟩
    else ⟨s.done, .failed⟩
  | .comment => if c = '\n' then ⟨s.done, .between⟩ else s
  | .name n =>
    if cmNameChar c then ⟨s.done, .name (n ++ [c])⟩
    else if cmBlank c then ⟨s.done, .named n⟩
    else if c = '(' then ⟨s.done, .args n []⟩
    else ⟨s.done, .failed⟩
  | .named n =>
    if cmBlank c then s
    else if c = '(' then ⟨s.done, .args n []⟩
    else ⟨s.done, .failed⟩
  | .args n as => cmArgs s.done n as c
  | .argComment n as => if c = '\n' then ⟨s.done, .args n as⟩ else s
  | .word n as w =>
    if cmBlank c || decide (c = '\n') || decide (c = '#') || decide (c = ')') then
      cmArgs s.done n (as ++ [⟨w, false⟩]) c
    else if cmSpecial c then ⟨s.done, .failed⟩
    else ⟨s.done, .word n as (w ++ [c])⟩
  | .quoted n as w =>
    if c = '"' then ⟨s.done, .args n (as ++ [⟨w, true⟩])⟩
    else if c = '\\' then ⟨s.done, .failed⟩
    else ⟨s.done, .quoted n as (w ++ [c])⟩
  | .failed => s

/-- Reading on. -/
def cmRead (s : CmLex) (text : Str) : CmLex := text.foldl cmStep s

/-- The commands of a text; a text must not end within a command. -/
def cmCommands (text : Str) : Option (List CmCommand) :=
  let s := cmRead ⟨[], .between⟩ text
  match s.mode with
  | .between | .after | .comment => some s.done
  | _ => none

/-- `${name}` replaced by the value; the first argument is the name so far, within a reference. -/
def cmExpand (vars : Str → Str) : Option Str → Str → Option Str
  | none, [] => some []
  | some _, [] => none
  | none, c :: cs =>
    match c, cs with
    | '$', '{' :: cs => cmExpand vars (some []) cs
    | c, cs => (cmExpand vars none cs).map (c :: ·)
  | some n, c :: cs =>
    if c = '}' then (cmExpand vars none cs).map (vars n ++ ·)
    else if c = '$' then none
    else cmExpand vars (some (n ++ [c])) cs

/-- A list is a text with semicolons; the empty parts are left out. The first argument is the part so
far. -/
def cmElements : Str → Str → List Str
  | part, [] => if part = [] then [] else [part]
  | part, c :: cs =>
    if c = ';' then (if part = [] then [] else [part]) ++ cmElements [] cs
    else cmElements (part ++ [c]) cs

/-- The arguments that one written argument stands for. -/
def cmArg (vars : Str → Str) (a : CmArg) : Option (List Str) :=
  (cmExpand vars none a.text).map fun t => if a.quoted then [t] else cmElements [] t

/-- The arguments of a command. -/
def cmArgsOf (vars : Str → Str) : List CmArg → Option (List Str)
  | [] => some []
  | a :: as => (cmArg vars a).bind fun x => (cmArgsOf vars as).map (x ++ ·)

/-- The elements with semicolons between them. -/
def cmJoin : List Str → Str
  | [] => []
  | [x] => x
  | x :: y :: xs => x ++ ';' :: cmJoin (y :: xs)

/-- `set(var value…)`; the other forms count as errors. -/
def cmSet (vars : Str → Str) : List Str → Option (Str → Str)
  | [] => none
  | x :: values =>
    if values.any fun v => decide (v = chars! "CACHE") || decide (v = chars! "PARENT_SCOPE") then none
    else some fun y => if y = x then cmJoin values else vars y

/-! ## Targets -/

/-- The characters that names of targets can have. -/
def cmTargetChar (c : Char) : Bool :=
  c.isAlpha || c.isDigit || decide (c = '_') || decide (c = '.') || decide (c = '+') || decide (c = '-')

/-- A plug-in: the target and the path of its source. -/
structure Plugin where
  target : Str
  source : Str
  deriving Repr, DecidableEq

/-- `ADD_LIBRARY(${name}Rule SHARED ${name}Rule.cpp)` and the same with `Reporter`: an error if the name
is none for a target, if there is such a target, or if there is no such source. -/
def cmAddLibrary (d : Disk) (dir suffix : Str) (others : List Str) (built : List Plugin) (name : Str) :
    Option (List Plugin) :=
  let target := name ++ suffix
  let source := dir ++ '/' :: target ++ chars! ".cpp"
  if target.all cmTargetChar && !others.contains target &&
      !(built.map (·.target)).contains target && (d.file source).isSome then
    some (built ++ [⟨target, source⟩])
  else none

/-! ## Rules -/

/-- What has been set up so far. -/
structure CmState where
  /-- the plug-ins, in the order in which they are added -/
  built : List Plugin
  /-- the categories that have been added -/
  added : List Str
  /-- the categories that have been left out because they have no list -/
  skipped : List Str
  deriving Repr, DecidableEq

/-- `oclint-rules/lib/CMakeLists.txt:10`, `lib/helper/CMakeLists.txt:1` and `lib/util/CMakeLists.txt:1`:
the other targets of the project. -/
def ruleProjectTargets : List Str :=
  [chars! "OCLintAbstractRule", chars! "OCLintHelper", chars! "OCLintUtil"]

/-- `oclint-rules/rules/CMakeLists.txt:1-34`, `build_dynamic_rule`. -/
def buildDynamicRule (d : Disk) (dir : Str) (built : List Plugin) (name : Str) : Option (List Plugin) :=
  cmAddLibrary d dir (chars! "Rule") ruleProjectTargets built name

/-- `oclint-rules/rules/CMakeLists.txt:36-40`, `build_dynamic_rules`. -/
def buildDynamicRules (d : Disk) (dir : Str) (built : List Plugin) (names : Str) :
    Option (List Plugin) :=
  (cmElements [] names).foldlM (buildDynamicRule d dir) built

/-- Variables and plug-ins. -/
structure CmScope where
  vars : Str → Str
  built : List Plugin

/-- A command of the list of a category. -/
def categoryCommand (d : Disk) (dir : Str) (s : CmScope) (c : CmCommand) : Option CmScope :=
  (cmArgsOf s.vars c.args).bind fun args =>
    if c.name = chars! "set" then (cmSet s.vars args).map fun vars => { s with vars := vars }
    else if c.name = chars! "build_dynamic_rules" then
      match args with
      | [names] => (buildDynamicRules d dir s.built names).map fun b => { s with built := b }
      | _ => none
    else none

/-- `ADD_SUBDIRECTORY` for a category: its list is read in a scope of its own. -/
def addCategory (d : Disk) (dir : Str) (vars : Str → Str) (built : List Plugin) (text : Str) :
    Option (List Plugin) :=
  (cmCommands text).bind fun cs =>
    (cs.foldlM (categoryCommand d dir) ⟨vars, built⟩).map (·.built)

/-- `oclint-rules/rules/CMakeLists.txt:42-46`, `add_rule_category_directory`.  Adding a directory twice is
an error.  Other characters than letters, digits and underscores count as errors. -/
def addRuleCategoryDirectory (d : Disk) (root : Str) (s : CmState) (category : Str) : Option CmState :=
  if category = [] ∨ !category.all cmNameChar then none
  else
    let dir := root ++ '/' :: category
    match d.file (dir ++ chars! "/CMakeLists.txt") with
    | none => some { s with skipped := s.skipped ++ [category] }
    | some text =>
      if s.added.contains category then none
      else (addCategory d dir (fun _ => []) s.built text).map fun b =>
        { s with built := b, added := s.added ++ [category] }

/-- A command of the list of categories; the flag is whether a macro is being defined. -/
def rootCommand (d : Disk) (root : Str) (s : Bool × CmState) (c : CmCommand) : Option (Bool × CmState) :=
  if s.1 then some (!decide (c.name = chars! "endmacro"), s.2)
  else if c.name = chars! "macro" then some (true, s.2)
  else if c.name = chars! "add_rule_category_directory" then
    match cmArgsOf (fun _ => []) c.args with
    | some [category] => (addRuleCategoryDirectory d root s.2 category).map (false, ·)
    | _ => none
  else none

/-- `oclint-rules/CMakeLists.txt:28`, `ADD_SUBDIRECTORY(rules)`. -/
def configureRules (d : Disk) (root : Str) : Option CmState :=
  (d.file (root ++ chars! "/CMakeLists.txt")).bind fun text =>
    (cmCommands text).bind fun cs =>
      match cs.foldlM (rootCommand d root) (false, ⟨[], [], []⟩) with
      | some (false, s) => some s
      | _ => none

/-! ## Reporters -/

/-- A command of a list in which a macro `cmd` with the name of a class makes a target; the flag is
whether a macro is being defined.  `TARGET_LINK_LIBRARIES` is for a target that there is. -/
def namedCommand (cmd suffix : Str) (d : Disk) (root : Str) (s : Bool × List Plugin) (c : CmCommand) :
    Option (Bool × List Plugin) :=
  if s.1 then some (!decide (c.name = chars! "endmacro"), s.2)
  else if c.name = chars! "macro" then some (true, s.2)
  else if c.name = cmd then
    match cmArgsOf (fun _ => []) c.args with
    | some [name] => (cmAddLibrary d root suffix [] s.2 name).map (false, ·)
    | _ => none
  else if c.name = chars! "target_link_libraries" then
    match cmArgsOf (fun _ => []) c.args with
    | some (target :: _) => if (s.2.map (·.target)).contains target then some s else none
    | _ => none
  else none

/-- A directory with such a list. -/
def configureNamed (cmd suffix : Str) (d : Disk) (root : Str) : Option (List Plugin) :=
  (d.file (root ++ chars! "/CMakeLists.txt")).bind fun text =>
    (cmCommands text).bind fun cs =>
      match cs.foldlM (namedCommand cmd suffix d root) (false, []) with
      | some (false, s) => some s
      | _ => none

/-- `oclint-reporters/CMakeLists.txt:18`, `ADD_SUBDIRECTORY(reporters)`;
`oclint-reporters/reporters/CMakeLists.txt:1-16`, `build_dynamic_reporter`. -/
def configureReporters : Disk → Str → Option (List Plugin) :=
  configureNamed (chars! "build_dynamic_reporter") (chars! "Reporter")

/-- `oclint-reporters/CMakeLists.txt:16`, `ADD_SUBDIRECTORY(test)`;
`oclint-reporters/test/CMakeLists.txt:1-12`, `build_test`, and the same in `oclint-core/test/CMakeLists.txt:1-14`,
`oclint-metrics/test/CMakeLists.txt:1-13` and `oclint-driver/test/CMakeLists.txt:1-19`.  What
`ADD_EXECUTABLE` does with a target and its source is what `ADD_LIBRARY` does with them. -/
def configureReporterTests : Disk → Str → Option (List Plugin) :=
  configureNamed (chars! "build_test") []

/-! ## The texts, line by line -/

/-- `oclint-rules/rules/CMakeLists.txt:1-58`. -/
def rootLines : List Str :=
  [chars! "MACRO(build_dynamic_rule name)",
   chars! "    IF (${CMAKE_SYSTEM_NAME} MATCHES \"Darwin\")",
   chars! "        SET(CMAKE_SHARED_LINKER_FLAGS \"-undefined dynamic_lookup\")",
   chars! "    ENDIF()",
   chars! "",
   chars! "    ADD_LIBRARY(${name}Rule SHARED ${name}Rule.cpp)",
   chars! "",
   chars! "    SET_TARGET_PROPERTIES(${name}Rule",
   chars! "        PROPERTIES LIBRARY_OUTPUT_DIRECTORY ${PROJECT_BINARY_DIR}/rules.dl",
   chars! "                   RUNTIME_OUTPUT_DIRECTORY ${PROJECT_BINARY_DIR}/rules.dl",
   chars! "        )",
   chars! "",
   chars! "    TARGET_LINK_LIBRARIES(${name}Rule OCLintAbstractRule)",
   chars! "",
   chars! "    TARGET_LINK_LIBRARIES(${name}Rule",
   chars! "        clangASTMatchers",
   chars! "    ) # TODO: might be redundant",
   chars! "",
   chars! "    TARGET_LINK_LIBRARIES(${name}Rule",
   chars! "        OCLintMetric",
   chars! "        OCLintHelper",
   chars! "        OCLintUtil",
   chars! "        OCLintCore",
   chars! "    )",
   chars! "",
   chars! "    IF (${CMAKE_SYSTEM_NAME} MATCHES \"FreeBSD\")",
   chars! "        TARGET_LINK_LIBRARIES(${name}Rule",
   chars! "            ${CLANG_LIBRARIES}",
   chars! "            ${REQ_LLVM_LIBRARIES}",
   chars! "            OCLintRuleSet",
   chars! "        )",
   chars! "    ENDIF()",
   chars! "",
   chars! "ENDMACRO(build_dynamic_rule)",
   chars! "",
   chars! "MACRO(build_dynamic_rules rules)",
   chars! "    FOREACH(it ${rules})",
   chars! "        BUILD_DYNAMIC_RULE(${it})",
   chars! "    ENDFOREACH(it)",
   chars! "ENDMACRO(build_dynamic_rules)",
   chars! "",
   chars! "MACRO(add_rule_category_directory category)",
   chars! "    IF(EXISTS ${CMAKE_CURRENT_SOURCE_DIR}/${category}/CMakeLists.txt)",
   chars! "        ADD_SUBDIRECTORY(${category})",
   chars! "    ENDIF()",
   chars! "ENDMACRO(add_rule_category_directory)",
   chars! "",
   chars! "ADD_RULE_CATEGORY_DIRECTORY(basic)",
   chars! "ADD_RULE_CATEGORY_DIRECTORY(cocoa)",
   chars! "ADD_RULE_CATEGORY_DIRECTORY(convention)",
   chars! "ADD_RULE_CATEGORY_DIRECTORY(cuda)",
   chars! "ADD_RULE_CATEGORY_DIRECTORY(design)",
   chars! "ADD_RULE_CATEGORY_DIRECTORY(empty)",
   chars! "ADD_RULE_CATEGORY_DIRECTORY(migration)",
   chars! "ADD_RULE_CATEGORY_DIRECTORY(naming)",
   chars! "ADD_RULE_CATEGORY_DIRECTORY(redundant)",
   chars! "ADD_RULE_CATEGORY_DIRECTORY(size)",
   chars! "ADD_RULE_CATEGORY_DIRECTORY(unused)"]

/-- `oclint-rules/rules/basic/CMakeLists.txt:1-19`. -/
def basicLines : List Str :=
  [chars! "SET(LIST_OF_RULES",
   chars! "    BitwiseOperatorInConditional",
   chars! "    BrokenNullCheck",
   chars! "    BrokenOddnessCheck",
   chars! "    CollapsibleIfStatements",
   chars! "    ConstantConditionalOperator",
   chars! "    ConstantIfExpression",
   chars! "    DeadCode",
   chars! "    DoubleNegative",
   chars! "    ForLoopShouldBeWhileLoop",
   chars! "    GotoStatement",
   chars! "    JumbledIncrementer",
   chars! "    MisplacedNullCheck",
   chars! "    MultipleUnaryOperator",
   chars! "    ReturnFromFinallyBlock",
   chars! "    ThrowExceptionFromFinallyBlock",
   chars! "    )",
   chars! "",
   chars! "BUILD_DYNAMIC_RULES(\"${LIST_OF_RULES}\")"]

/-- `oclint-rules/rules/cocoa/CMakeLists.txt:1-9`. -/
def cocoaLines : List Str :=
  [chars! "SET(LIST_OF_RULES",
   chars! "    ObjCVerifyIsEqualHash",
   chars! "    ObjCVerifyMustCallSuper",
   chars! "    ObjCVerifySubclassMustImplement",
   chars! "    ObjCVerifyProhibitedCall",
   chars! "    ObjCVerifyProtectedMethod",
   chars! "    )",
   chars! "",
   chars! "BUILD_DYNAMIC_RULES(\"${LIST_OF_RULES}\")"]

/-- `oclint-rules/rules/convention/CMakeLists.txt:1-17`. -/
def conventionLines : List Str :=
  [chars! "SET(LIST_OF_RULES",
   chars! "    AvoidBranchingStatementAsLastInLoop",
   chars! "    BaseClassDestructorShouldBeVirtualOrProtected",
   chars! "    DefaultLabelNotLastInSwitchStatement",
   chars! "    DestructorOfVirtualClass",
   chars! "    InvertedLogic",
   chars! "    MissingBreakInSwitchStatement",
   chars! "    NonCaseLabelInSwitchStatement",
   chars! "    ObjCAssignIvarOutsideAccessors",
   chars! "    ParameterReassignment",
   chars! "    PreferEarlyExit",
   chars! "    SwitchStatementsShouldHaveDefault",
   chars! "    CoveredSwitchStatementsDontNeedDefault",
   chars! "    TooFewBranchesInSwitchStatement",
   chars! "    )",
   chars! "",
   chars! "BUILD_DYNAMIC_RULES(\"${LIST_OF_RULES}\")"]

/-- `oclint-rules/rules/cuda/CMakeLists.txt:1-5`. -/
def cudaLines : List Str :=
  [chars! "SET(LIST_OF_RULES",
   chars! "    CudaBranchDivergence",
   chars! "    )",
   chars! "",
   chars! "BUILD_DYNAMIC_RULES(\"${LIST_OF_RULES}\")"]

/-- `oclint-rules/rules/design/CMakeLists.txt:1-7`. -/
def designLines : List Str :=
  [chars! "SET(LIST_OF_RULES",
   chars! "    AvoidDefaultArgumentsOnVirtualMethods",
   chars! "    AvoidPrivateStaticMembers",
   chars! "    #FeatureEnvy",
   chars! "    )",
   chars! "",
   chars! "BUILD_DYNAMIC_RULES(\"${LIST_OF_RULES}\")"]

/-- `oclint-rules/rules/empty/CMakeLists.txt:1-13`. -/
def emptyLines : List Str :=
  [chars! "SET(LIST_OF_RULES",
   chars! "    EmptyCatchStatement",
   chars! "    EmptyDoWhileStatement",
   chars! "    EmptyElseBlock",
   chars! "    EmptyFinallyStatement",
   chars! "    EmptyForStatement",
   chars! "    EmptyIfStatement",
   chars! "    EmptySwitchStatement",
   chars! "    EmptyTryStatement",
   chars! "    EmptyWhileStatement",
   chars! "    )",
   chars! "",
   chars! "BUILD_DYNAMIC_RULES(\"${LIST_OF_RULES}\")"]

/-- `oclint-rules/rules/migration/CMakeLists.txt:1-8`. -/
def migrationLines : List Str :=
  [chars! "SET(LIST_OF_RULES",
   chars! "    ObjCBoxedExpressions",
   chars! "    ObjCContainerLiterals",
   chars! "    ObjCNSNumberLiterals",
   chars! "    ObjCObjectSubscripting",
   chars! "    )",
   chars! "",
   chars! "BUILD_DYNAMIC_RULES(\"${LIST_OF_RULES}\")"]

/-- `oclint-rules/rules/naming/CMakeLists.txt:1-6`. -/
def namingLines : List Str :=
  [chars! "SET(LIST_OF_RULES",
   chars! "    LongVariableName",
   chars! "    ShortVariableName",
   chars! "    )",
   chars! "",
   chars! "BUILD_DYNAMIC_RULES(\"${LIST_OF_RULES}\")"]

/-- `oclint-rules/rules/redundant/CMakeLists.txt:1-11`. -/
def redundantLines : List Str :=
  [chars! "SET(LIST_OF_RULES",
   chars! "    RedundantConditionalOperator",
   chars! "    RedundantIfStatement",
   chars! "    RedundantLocalVariable",
   chars! "    RedundantNilCheck",
   chars! "    UnnecessaryElseStatement",
   chars! "    UnnecessaryNullCheckForCXXDealloc",
   chars! "    UselessParentheses",
   chars! "    )",
   chars! "",
   chars! "BUILD_DYNAMIC_RULES(\"${LIST_OF_RULES}\")"]

/-- `oclint-rules/rules/size/CMakeLists.txt:1-14`. -/
def sizeLines : List Str :=
  [chars! "SET(LIST_OF_RULES",
   chars! "    CyclomaticComplexity",
   chars! "    LongClass",
   chars! "    LongLine",
   chars! "    LongMethod",
   chars! "    NcssMethodCount",
   chars! "    NestedBlockDepth",
   chars! "    NPathComplexity",
   chars! "    TooManyFields",
   chars! "    TooManyMethods",
   chars! "    TooManyParameters",
   chars! "    )",
   chars! "",
   chars! "BUILD_DYNAMIC_RULES(\"${LIST_OF_RULES}\")"]

/-- `oclint-rules/rules/unused/CMakeLists.txt:1-6`. -/
def unusedLines : List Str :=
  [chars! "SET(LIST_OF_RULES",
   chars! "    UnusedLocalVariable",
   chars! "    UnusedMethodParameter",
   chars! "    )",
   chars! "",
   chars! "BUILD_DYNAMIC_RULES(\"${LIST_OF_RULES}\")"]

/-- `oclint-reporters/reporters/CMakeLists.txt:1-23`. -/
def reporterLines : List Str :=
  [chars! "MACRO(build_dynamic_reporter name)",
   chars! "    IF (${CMAKE_SYSTEM_NAME} MATCHES \"Darwin\")",
   chars! "        SET(CMAKE_SHARED_LINKER_FLAGS \"-undefined dynamic_lookup\")",
   chars! "    ENDIF()",
   chars! "",
   chars! "    ADD_LIBRARY(${name}Reporter SHARED ${name}Reporter.cpp)",
   chars! "",
   chars! "    SET_TARGET_PROPERTIES(${name}Reporter",
   chars! "        PROPERTIES LIBRARY_OUTPUT_DIRECTORY ${PROJECT_BINARY_DIR}/reporters.dl",
   chars! "\t\t\t\t   RUNTIME_OUTPUT_DIRECTORY ${PROJECT_BINARY_DIR}/reporters.dl",
   chars! "        )",
   chars! "",
   chars! "    TARGET_LINK_LIBRARIES(${name}Reporter",
   chars! "        OCLintCore",
   chars! "        )",
   chars! "ENDMACRO(build_dynamic_reporter)",
   chars! "",
   chars! "BUILD_DYNAMIC_REPORTER(Text)",
   chars! "BUILD_DYNAMIC_REPORTER(HTML)",
   chars! "BUILD_DYNAMIC_REPORTER(XML)",
   chars! "BUILD_DYNAMIC_REPORTER(JSON)",
   chars! "BUILD_DYNAMIC_REPORTER(PMD)",
   chars! "BUILD_DYNAMIC_REPORTER(Xcode)"]

/-- `oclint-reporters/test/CMakeLists.txt:1-20`. -/
def reporterTestLines : List Str :=
  [chars! "MACRO(build_test name)",
   chars! "    ADD_EXECUTABLE(${name} ${name}.cpp)",
   chars! "    TARGET_LINK_LIBRARIES(${name}",
   chars! "        ${GTEST_LIBS}",
   chars! "        ${PROFILE_RT_LIBS}",
   chars! "        ${CLANG_LIBRARIES}",
   chars! "        ${REQ_LLVM_LIBRARIES}",
   chars! "        OCLintCore",
   chars! "        )",
   chars! "",
   chars! "    ADD_TEST(${name} ${EXECUTABLE_OUTPUT_PATH}/${name})",
   chars! "ENDMACRO(build_test)",
   chars! "",
   chars! "BUILD_TEST(CanaryTest)",
   chars! "BUILD_TEST(TextReporterTest)",
   chars! "BUILD_TEST(HTMLReporterTest)",
   chars! "BUILD_TEST(XMLReporterTest)",
   chars! "BUILD_TEST(JSONReporterTest)",
   chars! "BUILD_TEST(PMDReporterTest)",
   chars! "BUILD_TEST(XcodeReporterTest)"]

/-- `oclint-core/test/CMakeLists.txt:1-28`. -/
def coreTestLines : List Str :=
  [chars! "MACRO(build_test name)",
   chars! "    ADD_EXECUTABLE(${name} ${name}.cpp)",
   chars! "    TARGET_LINK_LIBRARIES(${name}",
   chars! "        OCLintRuleSet",
   chars! "        OCLintCore",
   chars! "        ${GTEST_LIBS}",
   chars! "        ${PROFILE_RT_LIBS}",
   chars! "        ${CLANG_LIBRARIES}",
   chars! "        ${REQ_LLVM_LIBRARIES}",
   chars! "        ${CMAKE_DL_LIBS}",
   chars! "        )",
   chars! "",
   chars! "    ADD_TEST(${name} ${EXECUTABLE_OUTPUT_PATH}/${name})",
   chars! "ENDMACRO(build_test)",
   chars! "",
   chars! "BUILD_TEST(CanaryTest)",
   chars! "BUILD_TEST(RawResultsTest)",
   chars! "BUILD_TEST(ResultCollectorTest)",
   chars! "BUILD_TEST(RuleBaseTest)",
   chars! "BUILD_TEST(RuleCarrierTest)",
   chars! "BUILD_TEST(RuleConfigurationTest)",
   chars! "BUILD_TEST(RuleSetTest)",
   chars! "BUILD_TEST(UniqueResultsTest)",
   chars! "TARGET_LINK_LIBRARIES(RuleSetTest OCLintRuleSet)",
   chars! "",
   chars! "BUILD_TEST(VersionTest)",
   chars! "BUILD_TEST(ViolationSetTest)",
   chars! "BUILD_TEST(ViolationTest)"]

/-- `oclint-metrics/test/CMakeLists.txt:1-19`. -/
def metricsTestLines : List Str :=
  [chars! "MACRO(build_test name)",
   chars! "    ADD_EXECUTABLE(${name} ${name}.cpp)",
   chars! "    TARGET_LINK_LIBRARIES(${name}",
   chars! "        OCLintMetric",
   chars! "        ${GTEST_LIBS}",
   chars! "        ${PROFILE_RT_LIBS}",
   chars! "        ${CLANG_LIBRARIES}",
   chars! "        ${REQ_LLVM_LIBRARIES}",
   chars! "        ${CMAKE_DL_LIBS}",
   chars! "    )",
   chars! "",
   chars! "    ADD_TEST(${name} ${EXECUTABLE_OUTPUT_PATH}/${name})",
   chars! "ENDMACRO(build_test)",
   chars! "",
   chars! "BUILD_TEST(CanaryTest)",
   chars! "BUILD_TEST(CyclomaticComplexityMetricTest)",
   chars! "BUILD_TEST(NPathComplexityMetricTest)",
   chars! "BUILD_TEST(NcssMetricTest)",
   chars! "BUILD_TEST(StmtDepthMetricTest)"]

/-- `oclint-driver/test/CMakeLists.txt:1-21`. -/
def driverTestLines : List Str :=
  [chars! "MACRO(build_test name)",
   chars! "    ADD_EXECUTABLE(${name} ${name}.cpp)",
   chars! "    TARGET_LINK_LIBRARIES(${name}",
   chars! "        OCLintDriver",
   chars! "        OCLintRuleSet",
   chars! "        OCLintCore",
   chars! "        clangStaticAnalyzerFrontend",
   chars! "        clangStaticAnalyzerCheckers",
   chars! "        clangStaticAnalyzerCore",
   chars! "        clangRewriteFrontend",
   chars! "        clangRewrite",
   chars! "        ${GTEST_LIBS}",
   chars! "        ${PROFILE_RT_LIBS}",
   chars! "        ${CLANG_LIBRARIES}",
   chars! "        ${REQ_LLVM_LIBRARIES}",
   chars! "        )",
   chars! "",
   chars! "    ADD_TEST(${name} ${EXECUTABLE_OUTPUT_PATH}/${name})",
   chars! "ENDMACRO(build_test)",
   chars! "",
   chars! "BUILD_TEST(RulesetFilterTest)"]

/-- Lines as a text. -/
def cmText (lines : List Str) : Str := (lines.map (· ++ ['\n'])).flatten

/-- The categories and their lists. -/
def categoryLists : List (Str × List Str) :=
  [(chars! "basic", basicLines),
   (chars! "cocoa", cocoaLines),
   (chars! "convention", conventionLines),
   (chars! "cuda", cudaLines),
   (chars! "design", designLines),
   (chars! "empty", emptyLines),
   (chars! "migration", migrationLines),
   (chars! "naming", namingLines),
   (chars! "redundant", redundantLines),
   (chars! "size", sizeLines),
   (chars! "unused", unusedLines)]

end Oclint
