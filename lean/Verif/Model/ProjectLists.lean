import Verif.Model.CmakeCache
import Verif.Model.TestLists

/-!
# The lists of the parts: libraries and programs

`oclint-core/CMakeLists.txt`, `oclint-metrics/CMakeLists.txt`, `oclint-rules/CMakeLists.txt`,
`oclint-reporters/CMakeLists.txt`, `oclint-driver/CMakeLists.txt` and the lists in their directories
`lib`.  The directories `rules`, `reporters` and `test` have lists of other forms (`Model/CMake.lean`,
`Model/TestLists.lean`); here it is only noted that CMake is sent there.  Paths are within the part.

Not modelled: where headers are looked for, and `CMAKE_MODULE_PATH`, by which `OCLintConfig.cmake` is
found; of that file only `OCLINT_VERSION_RELEASE` and `EXECUTABLE_OUTPUT_PATH` matter here.  `${x}` for an
`x` that is only in the cache or only in that file is empty, but for the directories in which libraries are
looked for; so the libraries of LLVM and of the system that have no names in these lists are left out.
-/

namespace Oclint

/-- A library or a program; `place` is the directory, within that of the build, to which it is written. -/
structure BuildTarget where
  name : Str
  place : Str
  sources : List Str
  deriving Repr, DecidableEq

/-- Within which part of an `IF` a command is; with the value of the condition. -/
inductive CmBranch where
  | outside
  | first (condition : Bool)
  | second (condition : Bool)
  deriving Repr, DecidableEq

/-- Whether commands are carried out. -/
def CmBranch.active : CmBranch → Bool
  | .outside => true
  | .first b => b
  | .second b => !b

/-- What a list asks for: the targets; the directories whose lists are of other forms; what is linked with
targets; and where libraries are looked for, as it is written. -/
structure ProjectParts where
  targets : List BuildTarget
  others : List Str
  links : List (Str × List Str)
  linkDirs : List CmArg
  deriving Repr, DecidableEq

/-- What has been read of a list. -/
structure ProjectScope where
  branch : CmBranch
  vars : Str → Str
  parts : ProjectParts

/-- Commands that ask for nothing that is modelled. -/
def quietCommands : List Str :=
  [chars! "cmake_minimum_required", chars! "project", chars! "include_directories"]

/-- The words that mean something to `ADD_LIBRARY`; see also `executableWords`. -/
def libraryWords : List Str :=
  [chars! "STATIC", chars! "SHARED", chars! "MODULE", chars! "OBJECT", chars! "INTERFACE", chars! "UNKNOWN"]

/-- `ADD_LIBRARY` and `ADD_EXECUTABLE` in the directory `dir`; a kind is never given. -/
def addTarget (tree : Str → Option Str) (dir place : Str) (parts : ProjectParts) :
    List Str → Option ProjectParts
  | [] => none
  | name :: files =>
    if !name.isEmpty && name.all cmTargetChar && !(parts.targets.map (·.name)).contains name &&
        !files.isEmpty && files.all (fun f => !executableWords.contains f && !libraryWords.contains f &&
          (tree (dir ++ f)).isSome) then
      some { parts with targets := parts.targets ++ [⟨name, place, files.map (dir ++ ·)⟩] }
    else none

/-- `ADD_SUBDIRECTORY`; `sub` reads the list of another directory, with the variables so far. -/
def addSubdirectory (sub : Str → (Str → Str) → ProjectParts → Option ProjectParts) (dir : Str)
    (s : ProjectScope) : List Str → Option ProjectParts
  | [x] =>
    if x = chars! "rules" ∨ x = chars! "reporters" ∨ x = chars! "test" then
      some { s.parts with others := s.parts.others ++ [dir ++ x] }
    else sub (dir ++ x ++ ['/']) s.vars s.parts
  | _ => none

/-- A command of a list in the directory `dir`.  Libraries are written to the same directory of the build,
programs to `bin` (`oclint-core/cmake/OCLintConfig.cmake:37`).  `flags` are the options that `IF` may ask for. -/
def projectCommand (sub : Str → (Str → Str) → ProjectParts → Option ProjectParts) (flags : List (Str × Bool))
    (tree : Str → Option Str) (dir : Str) (s : ProjectScope) (c : CmCommand) : Option ProjectScope :=
  if c.name = chars! "if" then
    match s.branch, c.args with
    | .outside, [a] => (flags.lookup a.text).map fun b => { s with branch := .first b }
    | _, _ => none
  else if c.name = chars! "else" then
    match s.branch with
    | .first b => some { s with branch := .second b }
    | _ => none
  else if c.name = chars! "endif" then
    if s.branch = .outside then none else some { s with branch := .outside }
  else if !s.branch.active || quietCommands.contains c.name then some s
  else if c.name = chars! "include" then
    if c.args = [⟨chars! "OCLintConfig", false⟩] then
      some { s with vars := fun x => if x = chars! "OCLINT_VERSION_RELEASE" then chars! "26.02" else s.vars x }
    else none
  else if c.name = chars! "target_link_libraries" then
    match cmArgsOf s.vars c.args with
    | some (x :: libs) =>
      if (s.parts.targets.map (·.name)).contains x then
        some { s with parts := { s.parts with links := s.parts.links ++ [(x, libs)] } }
      else none
    | _ => none
  else if c.name = chars! "link_directories" then
    some { s with parts := { s.parts with linkDirs := s.parts.linkDirs ++ c.args } }
  else if c.name = chars! "set" ∧ (c.args.head?.map (·.text)) = some (chars! "CMAKE_MODULE_PATH") then some s
  else
    (cmArgsOf s.vars c.args).bind fun as =>
      if c.name = chars! "set" then (cmSet s.vars as).map fun v => { s with vars := v }
      else if c.name = chars! "add_library" then
        (addTarget tree dir dir s.parts as).map fun p => { s with parts := p }
      else if c.name = chars! "add_executable" then
        (addTarget tree dir (chars! "bin/") s.parts as).map fun p => { s with parts := p }
      else if c.name = chars! "add_subdirectory" then
        (addSubdirectory sub dir s as).map fun p => { s with parts := p }
      else none

/-- The list of the directory `dir` and those it leads to, at most `depth` of them below each other. -/
def readProject (flags : List (Str × Bool)) (tree : Str → Option Str) :
    Nat → Str → (Str → Str) → ProjectParts → Option ProjectParts
  | 0, _, _, _ => none
  | depth + 1, dir, vars, parts =>
    (tree (dir ++ chars! "CMakeLists.txt")).bind fun text =>
      (cmCommands text).bind fun cs =>
        (cs.foldlM (projectCommand (readProject flags tree depth) flags tree dir)
          ⟨.outside, vars, parts⟩).bind fun s => if s.branch = .outside then some s.parts else none

/-- What CMake is to build of the part in the directory `root`, with the options in the cache. -/
def configureProject (depth : Nat) (d : Disk) (root : Str) (cache : CmakeCache) : Option ProjectParts :=
  readProject [(chars! "TEST_BUILD", cmakeTrue (cache (chars! "TEST_BUILD"))),
      (chars! "DOC_GEN_BUILD", cmakeTrue (cache (chars! "DOC_GEN_BUILD")))]
    (fun p => d.file (root ++ '/' :: p)) depth [] (fun _ => []) ⟨[], [], [], []⟩

/-- The directories in which libraries are looked for, with what the cache says. -/
def searchedDirs (cache : CmakeCache) (parts : ProjectParts) : Option (List Str) :=
  cmArgsOf (fun k => (cache k).getD []) parts.linkDirs

/-! ## The texts, line by line -/

/-- `oclint-core/CMakeLists.txt:1-17`. -/
def coreProjectLines : List Str :=
  [chars! "CMAKE_MINIMUM_REQUIRED(VERSION 3.20)",
   chars! "PROJECT(OCLINT_CORE)",
   chars! "",
   chars! "SET(CMAKE_MODULE_PATH",
   chars! "    ${CMAKE_MODULE_PATH}",
   chars! "    \"${CMAKE_CURRENT_SOURCE_DIR}/cmake\"",
   chars! "    )",
   chars! "",
   chars! "INCLUDE(OCLintConfig)",
   chars! "",
   chars! "INCLUDE_DIRECTORIES(${CMAKE_CURRENT_SOURCE_DIR}/include)",
   chars! "",
   chars! "ADD_SUBDIRECTORY(lib)",
   chars! "",
   chars! "IF(TEST_BUILD)",
   chars! "    ADD_SUBDIRECTORY(test)",
   chars! "ENDIF()"]

/-- `oclint-core/lib/CMakeLists.txt:1-16`. -/
def coreLibLines : List Str :=
  [chars! "ADD_LIBRARY(OCLintCore",
   chars! "    AbstractResults.cpp",
   chars! "    Constants.cpp",
   chars! "    ResultCollector.cpp",
   chars! "    UniqueResults.cpp",
   chars! "    RawResults.cpp",
   chars! "    RuleBase.cpp",
   chars! "    RuleCarrier.cpp",
   chars! "    Violation.cpp",
   chars! "    ViolationSet.cpp",
   chars! "    )",
   chars! "",
   chars! "ADD_LIBRARY(OCLintRuleSet",
   chars! "    RuleConfiguration.cpp",
   chars! "    RuleSet.cpp",
   chars! "    )"]

/-- `oclint-metrics/CMakeLists.txt:1-18`. -/
def metricsProjectLines : List Str :=
  [chars! "CMAKE_MINIMUM_REQUIRED(VERSION 3.20)",
   chars! "PROJECT(OCLINT_METRICS)",
   chars! "",
   chars! "SET(CMAKE_MODULE_PATH",
   chars! "    ${CMAKE_MODULE_PATH}",
   chars! "    \"${CMAKE_CURRENT_SOURCE_DIR}/../oclint-core/cmake\"",
   chars! "    )",
   chars! "",
   chars! "INCLUDE(OCLintConfig)",
   chars! "",
   chars! "INCLUDE_DIRECTORIES(${OCLINT_METRICS_SOURCE_DIR}/include)",
   chars! "",
   chars! "ADD_SUBDIRECTORY(lib)",
   chars! "",
   chars! "IF(TEST_BUILD)",
   chars! "    INCLUDE_DIRECTORIES(${OCLINT_METRICS_SOURCE_DIR}/test/headers)",
   chars! "    ADD_SUBDIRECTORY(test)",
   chars! "ENDIF()"]

/-- `oclint-metrics/lib/CMakeLists.txt:1-9`. -/
def metricsLibLines : List Str :=
  [chars! "",
   chars! "SET (MetricSource",
   chars! "    CyclomaticComplexityMetric.cpp",
   chars! "    NcssMetric.cpp",
   chars! "    NPathComplexityMetric.cpp",
   chars! "    StmtDepthMetric.cpp",
   chars! ")",
   chars! "",
   chars! "ADD_LIBRARY(OCLintMetric ${MetricSource})"]

/-- `oclint-rules/CMakeLists.txt:1-29`. -/
def rulesProjectLines : List Str :=
  [chars! "CMAKE_MINIMUM_REQUIRED(VERSION 3.20)",
   chars! "PROJECT(OCLINT_RULES)",
   chars! "",
   chars! "SET(CMAKE_MODULE_PATH",
   chars! "    ${CMAKE_MODULE_PATH}",
   chars! "    \"${CMAKE_CURRENT_SOURCE_DIR}/../oclint-core/cmake\"",
   chars! "    )",
   chars! "",
   chars! "INCLUDE(OCLintConfig)",
   chars! "",
   chars! "INCLUDE_DIRECTORIES(",
   chars! "    ${OCLINT_SOURCE_DIR}/include",
   chars! "    ${OCLINT_METRICS_SOURCE_DIR}/include",
   chars! "    ${OCLINT_RULES_SOURCE_DIR}/include",
   chars! "    ${OCLINT_RULES_SOURCE_DIR}",
   chars! "    )",
   chars! "LINK_DIRECTORIES(",
   chars! "    ${OCLINT_BUILD_DIR}/lib",
   chars! "    ${OCLINT_METRICS_BUILD_DIR}/lib",
   chars! "    )",
   chars! "",
   chars! "ADD_SUBDIRECTORY(lib)",
   chars! "",
   chars! "IF(TEST_BUILD)",
   chars! "    INCLUDE_DIRECTORIES(${OCLINT_RULES_SOURCE_DIR}/test/headers)",
   chars! "    ADD_SUBDIRECTORY(test)",
   chars! "ELSE(TEST_BUILD)",
   chars! "    ADD_SUBDIRECTORY(rules)",
   chars! "ENDIF()"]

/-- `oclint-rules/lib/CMakeLists.txt:1-10`. -/
def rulesLibLines : List Str :=
  [chars! "ADD_SUBDIRECTORY(helper)",
   chars! "ADD_SUBDIRECTORY(util)",
   chars! "",
   chars! "SET (AbstractSource",
   chars! "    AbstractASTMatcherRule.cpp",
   chars! "    AbstractASTRuleBase.cpp",
   chars! "    AbstractSourceCodeReaderRule.cpp",
   chars! ")",
   chars! "",
   chars! "ADD_LIBRARY(OCLintAbstractRule ${AbstractSource})"]

/-- `oclint-rules/lib/helper/CMakeLists.txt:1-5`. -/
def helperLibLines : List Str :=
  [chars! "ADD_LIBRARY(OCLintHelper",
   chars! "    AttributeHelper.cpp",
   chars! "    EnforceHelper.cpp",
   chars! "    SuppressHelper.cpp",
   chars! ")"]

/-- `oclint-rules/lib/util/CMakeLists.txt:1-4`. -/
def utilLibLines : List Str :=
  [chars! "ADD_LIBRARY(OCLintUtil",
   chars! "    ASTUtil.cpp",
   chars! "    StdUtil.cpp",
   chars! ")"]

/-- `oclint-reporters/CMakeLists.txt:1-19`. -/
def reportersProjectLines : List Str :=
  [chars! "CMAKE_MINIMUM_REQUIRED(VERSION 3.20)",
   chars! "PROJECT(OCLINT_REPORTERS)",
   chars! "",
   chars! "SET(CMAKE_MODULE_PATH",
   chars! "    ${CMAKE_MODULE_PATH}",
   chars! "    \"${CMAKE_CURRENT_SOURCE_DIR}/../oclint-core/cmake\"",
   chars! "    )",
   chars! "",
   chars! "INCLUDE(OCLintConfig)",
   chars! "",
   chars! "INCLUDE_DIRECTORIES(${OCLINT_SOURCE_DIR}/include)",
   chars! "LINK_DIRECTORIES(${OCLINT_BUILD_DIR}/lib)",
   chars! "",
   chars! "IF(TEST_BUILD)",
   chars! "    INCLUDE_DIRECTORIES(${OCLINT_REPORTERS_SOURCE_DIR}/reporters)",
   chars! "    ADD_SUBDIRECTORY(test)",
   chars! "ELSE(TEST_BUILD)",
   chars! "    ADD_SUBDIRECTORY(reporters)",
   chars! "ENDIF()"]

/-- `oclint-driver/CMakeLists.txt:1-69`. -/
def driverProjectLines : List Str :=
  [chars! "CMAKE_MINIMUM_REQUIRED(VERSION 3.20)",
   chars! "PROJECT(OCLINT_DRIVER)",
   chars! "",
   chars! "SET(CMAKE_MODULE_PATH",
   chars! "    ${CMAKE_MODULE_PATH}",
   chars! "    \"${CMAKE_CURRENT_SOURCE_DIR}/../oclint-core/cmake\"",
   chars! "    )",
   chars! "",
   chars! "INCLUDE(OCLintConfig)",
   chars! "",
   chars! "INCLUDE_DIRECTORIES(",
   chars! "    ${OCLINT_SOURCE_DIR}/include",
   chars! "    )",
   chars! "LINK_DIRECTORIES(",
   chars! "    ${OCLINT_BUILD_DIR}/lib",
   chars! "    )",
   chars! "",
   chars! "INCLUDE_DIRECTORIES(${OCLINT_DRIVER_SOURCE_DIR}/include)",
   chars! "",
   chars! "ADD_SUBDIRECTORY(lib)",
   chars! "",
   chars! "ADD_EXECUTABLE(oclint-${OCLINT_VERSION_RELEASE}",
   chars! "    main.cpp",
   chars! "    reporters_dlfcn_port.cpp",
   chars! "    rules_dlfcn_port.cpp",
   chars! "    )",
   chars! "",
   chars! "TARGET_LINK_LIBRARIES(oclint-${OCLINT_VERSION_RELEASE}",
   chars! "    OCLintDriver",
   chars! "    OCLintRuleSet",
   chars! "    OCLintCore",
   chars! "    clangStaticAnalyzerFrontend",
   chars! "    clangStaticAnalyzerCheckers",
   chars! "    clangStaticAnalyzerCore",
   chars! "    clangRewriteFrontend",
   chars! "    clangRewrite",
   chars! "    clangCrossTU",
   chars! "    clangIndex",
   chars! "    ${CLANG_LIBRARIES}",
   chars! "    ${REQ_LLVM_LIBRARIES}",
   chars! "    ${CMAKE_DL_LIBS}",
   chars! "    )",
   chars! "",
   chars! "IF(TEST_BUILD)",
   chars! "    TARGET_LINK_LIBRARIES(oclint-${OCLINT_VERSION_RELEASE}",
   chars! "        ${PROFILE_RT_LIBS}",
   chars! "        )",
   chars! "    ADD_SUBDIRECTORY(test)",
   chars! "ENDIF()",
   chars! "",
   chars! "IF(DOC_GEN_BUILD)",
   chars! "    ADD_EXECUTABLE(oclint-docgen",
   chars! "        main_docgen.cpp",
   chars! "        rules_dlfcn_port.cpp",
   chars! "        )",
   chars! "    TARGET_LINK_LIBRARIES(oclint-docgen",
   chars! "        OCLintDriver",
   chars! "        OCLintRuleSet",
   chars! "        OCLintCore",
   chars! "        clangStaticAnalyzerFrontend",
   chars! "        clangStaticAnalyzerCheckers",
   chars! "        clangStaticAnalyzerCore",
   chars! "        clangRewriteFrontend",
   chars! "        clangRewrite",
   chars! "        ${CLANG_LIBRARIES}",
   chars! "        ${REQ_LLVM_LIBRARIES}",
   chars! "        ${CMAKE_DL_LIBS}",
   chars! "        )",
   chars! "ENDIF()"]

/-- `oclint-driver/lib/CMakeLists.txt:1-11`. -/
def driverLibLines : List Str :=
  [chars! "ADD_LIBRARY(OCLintDriver",
   chars! "    CompilerInstance.cpp",
   chars! "    ConfigFile.cpp",
   chars! "    DiagnosticDispatcher.cpp",
   chars! "    Driver.cpp",
   chars! "    GenericException.cpp",
   chars! "    Logger.cpp",
   chars! "    Options.cpp",
   chars! "    RulesetBasedAnalyzer.cpp",
   chars! "    RulesetFilter.cpp",
   chars! "    )"]

/-- The lists of a part, with the directories they are in. -/
def projectLists : OclintModule → List (Str × List Str)
  | .core => [([], coreProjectLines), (chars! "lib/", coreLibLines)]
  | .metrics => [([], metricsProjectLines), (chars! "lib/", metricsLibLines)]
  | .rules => [([], rulesProjectLines), (chars! "lib/", rulesLibLines), (chars! "lib/helper/", helperLibLines),
      (chars! "lib/util/", utilLibLines)]
  | .reporters => [([], reportersProjectLines)]
  | .driver => [([], driverProjectLines), (chars! "lib/", driverLibLines)]

end Oclint
