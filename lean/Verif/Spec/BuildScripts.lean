import Verif.Model.BuildScripts
import Verif.Spec.Registry

/-!
# Specification of the scripts that build, test and check the project
-/

namespace Oclint.Spec
open Oclint

/-- A command and the directory it is to be run in. -/
abbrev Planned := Str × Str

/-- The commands that were run, with their codes. -/
def commandsOf (events : List ScriptEvent) : List (Planned × Int) :=
  events.filterMap fun e => match e with
    | .ran cwd command code => some ((cwd, command), code)
    | _ => none

/-- The file operations that were done. -/
def actionsOf (events : List ScriptEvent) : List FileAction :=
  events.filterMap fun e => match e with
    | .did a => some a
    | _ => none

/-- No file operation fails. -/
def Solid (sh : Shell) : Prop := ∀ events a, sh.works events a = true

/-- Commands that all succeeded. -/
def passed (steps : List Planned) : List (Planned × Int) := steps.map fun s => (s, 0)

/-- `RunOf solid plan log code`: a script that is to run the commands `plan` has run those in `log`, all
in order, up to the first one that fails, and ends with `code`. -/
inductive RunOf (solid : Prop) (plan : List Planned) : List (Planned × Int) → Int → Prop where
  /-- everything succeeded -/
  | finished : RunOf solid plan (passed plan) 0
  /-- a command failed -/
  | failed (before : List Planned) (step : Planned) (after : List Planned) (code : Int) :
      plan = before ++ step :: after → code ≠ 0 →
      RunOf solid plan (passed before ++ [(step, code)]) code
  /-- a file operation failed -/
  | broken (before after : List Planned) : ¬ solid → plan = before ++ after →
      RunOf solid plan (passed before) 1
  /-- a command failed, and so did printing what it wrote -/
  | unread (before : List Planned) (step : Planned) (after : List Planned) (code : Int) : ¬ solid →
      plan = before ++ step :: after → code ≠ 0 →
      RunOf solid plan (passed before ++ [(step, code)]) 1

/-- Words with spaces between them. -/
def unwords : List Str → Str
  | [] => []
  | [w] => w
  | w :: ws => w ++ ' ' :: unwords ws

/-- `-D key=value`. -/
def define (key value : Str) : List Str := ["-D".toList, key ++ '=' :: value]

/-- What a part of the project is built on. -/
def needs : OclintModule → List OclintModule
  | .core => []
  | .metrics => []
  | .rules => [.core, .metrics]
  | .reporters => [.core]
  | .driver => [.core]

/-- How CMake is told where the sources and the results of a part are. -/
def tells (root suffix : Str) : OclintModule → List Str
  | .core => define "OCLINT_SOURCE_DIR".toList (root ++ "/oclint-core".toList) ++
      define "OCLINT_BUILD_DIR".toList (root ++ "/build/oclint-core".toList ++ suffix)
  | .metrics => define "OCLINT_METRICS_SOURCE_DIR".toList (root ++ "/oclint-metrics".toList) ++
      define "OCLINT_METRICS_BUILD_DIR".toList (root ++ "/build/oclint-metrics".toList ++ suffix)
  | _ => []

/-- The names of the parts of the project. -/
def partName : OclintModule → Str
  | .core => "core".toList
  | .metrics => "metrics".toList
  | .rules => "rules".toList
  | .reporters => "reporters".toList
  | .driver => "driver".toList

/-- The directory in which a part is built; `suffix` is `-test` for tests, `-dogfooding` for checks. -/
def workDir (root suffix : Str) (m : OclintModule) : Str :=
  root ++ "/build/oclint-".toList ++ partName m ++ suffix

/-- The sources of a part. -/
def sourceDir (root : Str) (m : OclintModule) : Str := root ++ "/oclint-".toList ++ partName m

/-- The program that builds what CMake prepared. -/
def builder (cpus : Nat) (noNinja : Bool) (j : Int) : Str :=
  unwords (if noNinja then
      ["make".toList, "-j".toList, if j = 0 then decimal cpus else decimalInt j]
    else if j = 0 then ["ninja".toList] else ["ninja".toList, "-j".toList, decimalInt j])

/-- The words with which CMake is called for `build`. -/
def buildWords (root : Str) (a : BuildArgs) (m : OclintModule) : List Str :=
  ["cmake".toList] ++ (if a.noNinja then [] else ["-G".toList, "Ninja".toList])
    ++ (if a.release then define "OCLINT_BUILD_TYPE".toList "Release".toList else [])
    ++ (if a.docgen then define "DOC_GEN_BUILD".toList "1".toList else [])
    ++ define "LLVM_ROOT".toList a.llvmRoot
    ++ (needs m).flatMap (tells root []) ++ [sourceDir root m]

/-- The commands of `build`. -/
def buildPlan (cpus : Nat) (root : Str) (a : BuildArgs) (ms : List OclintModule) : List Planned :=
  ms.flatMap fun m =>
    [(workDir root [] m, unwords (buildWords root a m)), (workDir root [] m, builder cpus a.noNinja a.j)]

/-- The words with which CMake is called for `test`. -/
def testWords (root : Str) (a : TestArgs) (m : OclintModule) : List Str :=
  ["cmake".toList] ++ (if a.asDep then [] else define "TEST_BUILD".toList "1".toList)
    ++ (if a.noNinja then [] else ["-G".toList, "Ninja".toList])
    ++ define "LLVM_ROOT".toList a.llvmRoot
    ++ define "GOOGLETEST_SRC".toList (root ++ "/googletest".toList)
    ++ define "GOOGLETEST_BUILD".toList (root ++ "/build/googletest/lib".toList)
    ++ (needs m).flatMap (tells root "-test".toList) ++ [sourceDir root m]

/-- The tests of a part. -/
def ctest (root : Str) (m : OclintModule) : Planned :=
  (workDir root "-test".toList m, unwords ["ctest".toList, "--output-on-failure".toList, ">".toList,
    workDir root "-test".toList m ++ "/testresults.txt".toList])

/-- The commands of `test`. -/
def testPlan (cpus : Nat) (root : Str) (a : TestArgs) (ms : List OclintModule) : List Planned :=
  ms.flatMap fun m =>
    [(workDir root "-test".toList m, unwords (testWords root a m)),
      (workDir root "-test".toList m, builder cpus a.noNinja a.j)]
    ++ (if a.asDep then [] else [ctest root m])

/-- The words with which CMake is called for `dogFooding`. -/
def dogWords (root : Str) (a : DogArgs) (m : OclintModule) : List Str :=
  ["cmake".toList] ++ define "CMAKE_EXPORT_COMPILE_COMMANDS".toList "ON".toList
    ++ define "LLVM_ROOT".toList a.llvmRoot
    ++ (needs m).flatMap (tells root []) ++ [sourceDir root m]

/-- The check of a part with the program that was built. -/
def check (root : Str) (a : DogArgs) (m : OclintModule) : Planned :=
  (sourceDir root m, unwords ([root ++ "/build/oclint-release/bin/oclint-json-compilation-database".toList,
    "--".toList, "-max-priority-1=0".toList, "-max-priority-2=0".toList, "-max-priority-3=0".toList]
    ++ (if a.staticAnalyzer then ["-enable-clang-static-analyzer".toList] else [])
    ++ ["-o".toList, workDir root "-dogfooding".toList m ++ "/dogfooding_results.txt".toList]))

/-- The commands of `dogFooding`. -/
def dogPlan (root : Str) (a : DogArgs) (ms : List OclintModule) : List Planned :=
  ms.flatMap fun m =>
    [(workDir root "-dogfooding".toList m, unwords (dogWords root a m)), check root a m]

/-- What `ci -setup` fetches with git. -/
def ciClones (darwin : Bool) : List Str :=
  [unwords ["git".toList, "clone".toList,
    "https://github.com/oclint/oclint-json-compilation-database.git".toList]]
  ++ if darwin then [unwords ["git".toList, "clone".toList,
    "https://github.com/oclint/oclint-xcodebuild.git".toList]] else []

/-- The scripts that `ci` calls. -/
def ciCalls (python : Str) (cpus : Nat) (unix : Bool) (a : CiArgs) : List Str :=
  let j := if a.j = 0 then decimal cpus else decimalInt a.j
  let script (ws : List Str) : Str := unwords (python :: ws)
  (if a.setup then [script ["clang".toList]]
    ++ (if a.release then [] else [script ["googleTest".toList, "co".toList],
      script ["googleTest".toList, "build".toList, "-clean".toList, "-j".toList, j]])
    else [])
  ++ (if a.release then [script ["build".toList, "-clean".toList, "-release".toList, "-j".toList, j]]
    else [script ["test".toList, "-clean".toList, "-j".toList, j],
      script ["build".toList, "-clean".toList, "-j".toList, j]])
  ++ [script ["bundle".toList]]
  ++ (if unix ∧ ¬ a.release then
    [script ["dogFooding".toList, "-enable-clang-static-analyzer".toList]] else [])
  ++ (if a.archive then [script (["bundle".toList, "-archive".toList]
    ++ if a.release then ["-release".toList] else [])] else [])

/-- The commands of `ci`, called in the directory `here`. -/
def ciPlan (python : Str) (cpus : Nat) (darwin unix : Bool) (root here : Str) (a : CiArgs) :
    List Planned :=
  (if a.setup then (ciClones darwin).map fun c => (root, c) else [])
  ++ (ciCalls python cpus unix a).map fun c => (here, c)

/-- The directory of the project: absolute, and not the root of the file system. -/
def ProjectRoot (root : Str) : Prop := root ≠ [] ∧ root.getLast? ≠ some '/'

/-- A file operation only writes to directories in the list, and to files in `files`. -/
def WritesOnly (dirs files : List Str) : FileAction → Prop
  | .enter _ => True
  | .show _ => True
  | .remove d => d ∈ dirs
  | .make d => d ∈ dirs
  | .copy _ dst => dst ∈ files
  | .copyTree _ dst => dst ∈ dirs

/-- The parts of the project a script is for: the one that is named, or all in the order in which they can
be built. -/
def partsOf : Option OclintModule → List OclintModule
  | some m => [m]
  | none => [.core, .metrics, .rules, .reporters, .driver]

/-! ## Everything a script does, step by step -/

/-- A step of a script. -/
inductive ScriptStep where
  /-- run a command; the script ends if it fails -/
  | run (command : Str)
  /-- run a command and print the file it has written; the script ends if it failed -/
  | runAndShow (command file : Str)
  | act (a : FileAction)
  /-- remove a directory that exists -/
  | clear (dir : Str)
  /-- make a directory that does not exist -/
  | ensure (dir : Str)
  /-- use the compiler that is installed there -/
  | compiler (llvmRoot : Str)

/-- A directory with a slash after it. -/
def slashed (dir : Str) : Str := if dir = [] ∨ dir.getLast? = some '/' then dir else dir ++ "/".toList

/-- One file operation: where it leads, and how the script ends if it ends. -/
def doAction (sh : Shell) (a : FileAction) (s : ScriptState) : Option Int × ScriptState :=
  if sh.works s.events a then
    (none, ⟨match a with | .enter d => d | _ => s.cwd, s.events ++ [.did a]⟩)
  else (some 1, s)

/-- One step. -/
def doStep (sh : Shell) (s : ScriptState) : ScriptStep → Option Int × ScriptState
  | .run command =>
    let code := sh.run s.events s.cwd command
    (if code = 0 then none else some code, ⟨s.cwd, s.events ++ [.ran s.cwd command code]⟩)
  | .runAndShow command file =>
    let code := sh.run s.events s.cwd command
    let (failure, s') := doAction sh (.show file) ⟨s.cwd, s.events ++ [.ran s.cwd command code]⟩
    (failure.or (if code = 0 then none else some code), s')
  | .act a => doAction sh a s
  | .clear d => if sh.isDir s.events d then doAction sh (.remove d) s else (none, s)
  | .ensure d => if sh.isDir s.events d then (none, s) else doAction sh (.make d) s
  | .compiler llvmRoot =>
    let bin := slashed llvmRoot ++ "bin/".toList
    (none, ⟨s.cwd, s.events ++ if sh.pathExists s.events (bin ++ "clang".toList) then
      [.setEnv "CC".toList (bin ++ "clang".toList), .setEnv "CXX".toList (bin ++ "clang++".toList)]
      else []⟩)

/-- The steps one after the other, until one ends the script. -/
def carryOut (sh : Shell) : List ScriptStep → ScriptState → Int × ScriptState
  | [], s => (0, s)
  | step :: rest, s =>
    match doStep sh s step with
    | (none, s') => carryOut sh rest s'
    | (some code, s') => (code % 256, s')

/-- The steps of `build`, called in the directory `here`. -/
def buildSteps (cpus : Nat) (root here : Str) (a : BuildArgs) : List ScriptStep :=
  (if a.useLlvmClang then [.compiler a.llvmRoot] else [])
  ++ (if a.clean then (partsOf a.moduleName).map fun m => .clear (workDir root [] m) else [])
  ++ (partsOf a.moduleName).flatMap fun m =>
    [.ensure (workDir root [] m), .act (.enter (workDir root [] m)), .run (unwords (buildWords root a m)),
      .run (builder cpus a.noNinja a.j), .act (.enter here)]

/-- The file with the results of the tests of a part. -/
def testResults (root : Str) (m : OclintModule) : Str :=
  workDir root "-test".toList m ++ "/testresults.txt".toList

/-- Where the tests of the rules look for the headers of the compiler. -/
def headersDir (tempDir : Str) : Str := slashed tempDir ++ "oclint-rules-test/clang".toList

/-- The steps of `test`. -/
def testSteps (cpus : Nat) (tempDir root here : Str) (a : TestArgs) : List ScriptStep :=
  (if a.useLlvmClang then [.compiler a.llvmRoot] else [])
  ++ if a.showResults then (partsOf a.moduleName).map fun m => .act (.show (testResults root m))
  else (if a.clean then (partsOf a.moduleName).map fun m => .clear (workDir root "-test".toList m) else [])
  ++ (partsOf a.moduleName).flatMap fun m =>
    [.ensure (workDir root "-test".toList m), .act (.enter (workDir root "-test".toList m)),
      .run (unwords (testWords root a m)), .run (builder cpus a.noNinja a.j)]
    ++ (if a.asDep then [] else
      (if m = .rules then [.clear (headersDir tempDir), .act (.copyTree
        (root ++ "/build/llvm-install/lib/clang/21/include".toList) (headersDir tempDir))] else [])
      ++ [.runAndShow (ctest root m).2 (testResults root m)])
    ++ [.act (.enter here)]

/-- The file with the results of the check of a part. -/
def dogResults (root : Str) (m : OclintModule) : Str :=
  workDir root "-dogfooding".toList m ++ "/dogfooding_results.txt".toList

/-- The steps of `dogFooding`. -/
def dogSteps (root here : Str) (a : DogArgs) : List ScriptStep :=
  (if a.useLlvmClang then [.compiler a.llvmRoot] else [])
  ++ if a.showResults then (partsOf a.moduleName).map fun m => .act (.show (dogResults root m))
  else (partsOf a.moduleName).flatMap fun m =>
    [.clear (workDir root "-dogfooding".toList m), .ensure (workDir root "-dogfooding".toList m),
      .act (.enter (workDir root "-dogfooding".toList m)), .run (unwords (dogWords root a m)),
      .act (.enter here),
      .act (.copy (workDir root "-dogfooding".toList m ++ "/compile_commands.json".toList)
        (sourceDir root m ++ "/compile_commands.json".toList)),
      .act (.enter (sourceDir root m)), .runAndShow (check root a m).2 (dogResults root m),
      .act (.enter here)]

/-- The steps of `ci`. -/
def ciSteps (python : Str) (cpus : Nat) (darwin unix : Bool) (root here : Str) (a : CiArgs) : List ScriptStep :=
  if a.reset then ["/build".toList, "/llvm".toList, "/googletest".toList,
    "/oclint-json-compilation-database".toList, "/oclint-xcodebuild".toList].map fun d => .clear (root ++ d)
  else (if a.setup then [.act (.enter root)] ++ (ciClones darwin).map (.run ·) ++ [.act (.enter here)]
    else [])
  ++ (ciCalls python cpus unix a).map (.run ·)

end Oclint.Spec
