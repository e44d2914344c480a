import Verif.Model.Install
import Verif.Model.Text

/-!
# Building, testing and checking the project itself

Models the scripts `build`, `test`, `dogFooding` and `ci` of `oclint-scripts` with the functions of
`oclintscripts/process.py`, `path.py` and `cmake.py` that they use, after `argparse` has read the command
line.  What commands do, which file operations work and which directories exist is asked of a `Shell`,
which may answer according to everything that happened before.

Simplifications: a script that another one starts is a command like any other; what is printed is left
out, except that a file has to be read for it; an exception that nobody catches ends a script with exit
code 1.
-/

namespace Oclint

/-- The parts of the project (`OCLINT_MODULES`, `build:11`, `test:16`, `dogFooding:14`). -/
inductive OclintModule where
  | core | metrics | rules | reporters | driver
deriving DecidableEq, Repr

/-- `OCLINT_MODULES` (`build:11`, `test:16`, `dogFooding:14`), in this order. -/
def oclintModules : List OclintModule := [.core, .metrics, .rules, .reporters, .driver]

/-- The names in `OCLINT_MODULES` (`build:11`). -/
def OclintModule.name : OclintModule → Str
  | .core => "core".toList
  | .metrics => "metrics".toList
  | .rules => "rules".toList
  | .reporters => "reporters".toList
  | .driver => "driver".toList

/-- What scripts do to files and to themselves. -/
inductive FileAction where
  /-- `os.chdir` -/
  | enter (dir : Str)
  /-- `shutil.rmtree` -/
  | remove (dir : Str)
  /-- `os.makedirs` -/
  | make (dir : Str)
  /-- `shutil.copy2` -/
  | copy (src dst : Str)
  /-- `shutil.copytree` -/
  | copyTree (src dst : Str)
  /-- a text file is read and printed -/
  | show (file : Str)
deriving DecidableEq, Repr

/-- What happens while a script runs. -/
inductive ScriptEvent where
  /-- A command was run in a directory and ended with a code; it is negative if a signal ended it. -/
  | ran (cwd command : Str) (code : Int)
  | did (action : FileAction)
  /-- `os.environ[name] = value` -/
  | setEnv (name value : Str)
deriving DecidableEq, Repr

/-- The machine a script runs on. -/
structure Shell where
  run : List ScriptEvent → Str → Str → Int
  works : List ScriptEvent → FileAction → Bool
  isDir : List ScriptEvent → Str → Bool
  pathExists : List ScriptEvent → Str → Bool
  /-- `multiprocessing.cpu_count()` -/
  cpuCount : Nat
  /-- `tempfile.gettempdir()` -/
  tempDir : Str
  /-- `sys.executable` -/
  python : Str
  isDarwin : Bool
  isLinux : Bool

/-- The working directory and what happened so far. -/
structure ScriptState where
  cwd : Str
  events : List ScriptEvent

/-- A part of a script; it may end the script with an argument for `sys.exit`. -/
abbrev Script (α : Type) := ScriptState → Except Int α × ScriptState

/-- Nothing. -/
def Script.skip : Script Unit := fun s => (.ok (), s)

/-- One part after the other. -/
def Script.andThen {α β : Type} (p : Script α) (q : α → Script β) : Script β := fun s =>
  match p s with
  | (.ok a, s') => q a s'
  | (.error e, s') => (.error e, s')

/-- Two parts, one after the other. -/
def Script.seq (p q : Script Unit) : Script Unit := p.andThen fun _ => q

@[inherit_doc] infixr:60 " ;; " => Script.seq

/-- A `for` loop. -/
def Script.each {α : Type} : List α → (α → Script Unit) → Script Unit
  | [], _ => .skip
  | a :: as, p => p a ;; Script.each as p

/-- `if` without `else`. -/
def Script.when (b : Bool) (p : Script Unit) : Script Unit := if b then p else .skip

/-- `sys.exit`. -/
def Script.exit (code : Int) : Script Unit := fun s => (.error code, s)

/-- The exit status of a script: what the system keeps of the argument of `sys.exit`. -/
def exitStatus : Except Int Unit → Int
  | .ok _ => 0
  | .error code => code % 256

/-- `subprocess.call(command, shell=True)`. -/
def subprocessCall (sh : Shell) (command : Str) : Script Int := fun s =>
  (.ok (sh.run s.events s.cwd command),
    { s with events := s.events ++ [.ran s.cwd command (sh.run s.events s.cwd command)] })

/-- The directory after an action. -/
def FileAction.cwdAfter (cwd : Str) : FileAction → Str
  | .enter dir => dir
  | _ => cwd

/-- A file operation; if it fails an exception is thrown that nobody catches. -/
def perform (sh : Shell) (a : FileAction) : Script Unit := fun s =>
  if sh.works s.events a then (.ok (), ⟨a.cwdAfter s.cwd, s.events ++ [.did a]⟩) else (.error 1, s)

/-- `process.py:8-11`, `call`. -/
def processCall (sh : Shell) (command : Str) : Script Unit :=
  (subprocessCall sh command).andThen fun code => Script.when (decide (code ≠ 0)) (.exit code)

/-- `process.py:13-17`, `j_flag`. -/
def jFlag (sh : Shell) (j : Int) : Str :=
  " -j ".toList ++ (if j ≠ 0 then toStringInt j else toStringInt sh.cpuCount)

/-- `process.py:19-20`, `make`. -/
def processMake (sh : Shell) (j : Int) : Script Unit := processCall sh ("make".toList ++ jFlag sh j)

/-- `process.py:22-26`, `ninja`. -/
def processNinja (sh : Shell) (j : Int) : Script Unit :=
  if j ≠ 0 then processCall sh ("ninja".toList ++ jFlag sh j) else processCall sh "ninja".toList

/-- `path.py:82-84`, `rm_f`. -/
def pathRmF (sh : Shell) (dir : Str) : Script Unit := fun s =>
  Script.when (sh.isDir s.events dir) (perform sh (.remove dir)) s

/-- `path.py:86-88`, `mkdir_p`. -/
def pathMkdirP (sh : Shell) (dir : Str) : Script Unit := fun s =>
  Script.when (!sh.isDir s.events dir) (perform sh (.make dir)) s

/-- `current_dir = os.getcwd()` … `path.cd(current_dir)` around a part of a script. -/
def returning (sh : Shell) (p : Script Unit) : Script Unit := fun s =>
  (p ;; perform sh (.enter s.cwd)) s

/-! ## Directories -/

/-- `path.py:14-15`, `oclint_module_source_dir`. -/
def moduleSourceDir (root : Str) (m : OclintModule) : Str :=
  osPathJoin root ("oclint-".toList ++ m.name)

/-- `path.py:20-21`, `oclint_module_build_dir`. -/
def moduleOwnBuildDir (root : Str) (m : OclintModule) : Str := oclintModuleBuildDir root m.name

/-- `path.py:23-24`, `oclint_module_test_dir`. -/
def moduleTestDir (root : Str) (m : OclintModule) : Str :=
  moduleBuildDir root ("oclint-".toList ++ m.name ++ "-test".toList)

/-- `path.py:26-27`, `oclint_module_dogfooding_dir`. -/
def moduleDogfoodingDir (root : Str) (m : OclintModule) : Str :=
  moduleBuildDir root ("oclint-".toList ++ m.name ++ "-dogfooding".toList)

/-- `path.py:31`, `googletest_dir`. -/
def googletestDir (root : Str) : Str := osPathJoin root "googletest".toList

/-- `path.py:44`, `clang_install_dir`, the default of `-llvm-root`. -/
def clangInstallDir (root : Str) : Str := moduleBuildDir root "llvm-install".toList

/-- `path.py:45`, `googletest_build_dir`. -/
def googletestBuildDir (root : Str) : Str :=
  osPathJoin (moduleBuildDir root "googletest".toList) "lib".toList

/-! ## CMake -/

/-- `cmake.py:20-26`, `append` without quotes, as it is used by these scripts. -/
def cmakeAppend (cmd key value : Str) : Str := cmd ++ " -D ".toList ++ key ++ "=".toList ++ value

/-- `cmake.py:37-39`, `use_ninja`. -/
def cmakeNinja (cmd : Str) : Str := cmd ++ " -G Ninja".toList

/-- `cmake.py:41-44`, `append_dict`. -/
def cmakeAppendDict (cmd : Str) (d : List (Str × Str)) : Str :=
  d.foldl (fun c kv => cmakeAppend c kv.1 kv.2) cmd

/-- `cmake.py:16-18`, `str`. -/
def cmakeStr (cmd source : Str) : Str := cmd ++ " ".toList ++ source

/-- `build:46-52`, `test:63-69`, `dogFooding:48-54`: where a part finds the parts it uses; `dirOf` says
where these were built. -/
def moduleExtras (root : Str) (dirOf : OclintModule → Str) (m : OclintModule) : List (Str × Str) :=
  (if m = .rules ∨ m = .reporters ∨ m = .driver then
    [("OCLINT_SOURCE_DIR".toList, moduleSourceDir root .core),
      ("OCLINT_BUILD_DIR".toList, dirOf .core)] else []) ++
  (if m = .rules then
    [("OCLINT_METRICS_SOURCE_DIR".toList, moduleSourceDir root .metrics),
      ("OCLINT_METRICS_BUILD_DIR".toList, dirOf .metrics)] else [])

/-! ## The script `build` -/

/-- The options of `build` (`build:13-24`). -/
structure BuildArgs where
  /-- `none` for `all` -/
  moduleName : Option OclintModule := none
  docgen : Bool := false
  release : Bool := false
  clean : Bool := false
  j : Int := 0
  llvmRoot : Str
  noNinja : Bool := false
  useLlvmClang : Bool := false

/-- `build:66-70`, `test:91-95`, `dogFooding:93-97`. -/
def chosenModules : Option OclintModule → List OclintModule
  | none => oclintModules
  | some m => [m]

/-- `build:72-78`, `test:97-103`, `dogFooding:26-32`. -/
def useLlvmClang (sh : Shell) (llvmRoot : Str) (use : Bool) : Script Unit :=
  Script.when use fun s =>
    Script.when (sh.pathExists s.events (osPathJoin (osPathJoin llvmRoot "bin".toList) "clang".toList))
      (fun s => (.ok (), { s with events := s.events ++
        [.setEnv "CC".toList (osPathJoin (osPathJoin llvmRoot "bin".toList) "clang".toList),
          .setEnv "CXX".toList (osPathJoin (osPathJoin llvmRoot "bin".toList) "clang++".toList)] })) s

/-- `build:30-40`, `build_command`. -/
def buildCommand (a : BuildArgs) (extras : List (Str × Str)) (source : Str) : Str :=
  let c0 := "cmake".toList
  let c1 := if a.noNinja then c0 else cmakeNinja c0
  let c2 := if a.release then cmakeAppend c1 "OCLINT_BUILD_TYPE".toList "Release".toList else c1
  let c3 := if a.docgen then cmakeAppend c2 "DOC_GEN_BUILD".toList "1".toList else c2
  cmakeStr (cmakeAppendDict c3 (("LLVM_ROOT".toList, a.llvmRoot) :: extras)) source

/-- `build:60-63`, `test:77-80`. -/
def makeOrNinja (sh : Shell) (noNinja : Bool) (j : Int) : Script Unit :=
  if noNinja then processMake sh j else processNinja sh j

/-- `build:42-64`, `build_module`. -/
def buildModule (sh : Shell) (root : Str) (a : BuildArgs) (m : OclintModule) : Script Unit :=
  returning sh (pathMkdirP sh (moduleOwnBuildDir root m) ;;
    perform sh (.enter (moduleOwnBuildDir root m)) ;;
    processCall sh (buildCommand a (moduleExtras root (moduleOwnBuildDir root) m)
      (moduleSourceDir root m)) ;;
    makeOrNinja sh a.noNinja a.j)

/-- `build:66-85`. -/
def buildScript (sh : Shell) (root : Str) (a : BuildArgs) : Script Unit :=
  useLlvmClang sh a.llvmRoot a.useLlvmClang ;;
  Script.when a.clean (Script.each (chosenModules a.moduleName) fun m =>
    pathRmF sh (moduleOwnBuildDir root m)) ;;
  Script.each (chosenModules a.moduleName) (buildModule sh root a)

/-! ## The script `test` -/

/-- The options of `test` (`test:18-29`). -/
structure TestArgs where
  moduleName : Option OclintModule := none
  showResults : Bool := false
  clean : Bool := false
  j : Int := 0
  asDep : Bool := false
  llvmRoot : Str
  noNinja : Bool := false
  useLlvmClang : Bool := false

/-- `test:35-43`, `build_command`. -/
def testCommand (root : Str) (a : TestArgs) (extras : List (Str × Str)) (source : Str) : Str :=
  let c0 := "cmake".toList
  let c1 := if a.asDep then c0 else cmakeAppend c0 "TEST_BUILD".toList "1".toList
  let c2 := if a.noNinja then c1 else cmakeNinja c1
  cmakeStr (cmakeAppendDict c2 ([("LLVM_ROOT".toList, a.llvmRoot),
    ("GOOGLETEST_SRC".toList, googletestDir root),
    ("GOOGLETEST_BUILD".toList, googletestBuildDir root)] ++ extras)) source

/-- `test:45-46`, `test_result_path`. -/
def testResultPath (root : Str) (m : OclintModule) : Str :=
  osPathJoin (moduleTestDir root m) "testresults.txt".toList

/-- `version.py:29-30`, `llvm_major_version`, of the version in lines 26-27. -/
def llvmMajorVersion : Str := "21".toList

/-- `test:53-57`, `install_clang_headers_to_tmp`. -/
def installClangHeaders (sh : Shell) (root : Str) : Script Unit :=
  pathRmF sh (osPathJoin (osPathJoin sh.tempDir "oclint-rules-test".toList) "clang".toList) ;;
  perform sh (.copyTree
    (osPathJoin (osPathJoin (osPathJoin (osPathJoin (clangInstallDir root) "lib".toList)
      "clang".toList) llvmMajorVersion) "include".toList)
    (osPathJoin (osPathJoin sh.tempDir "oclint-rules-test".toList) "clang".toList))

/-- `test:84-88`, `dogFooding:87-90`: a command whose code counts after its output is printed. -/
def callAndShow (sh : Shell) (command file : Str) : Script Unit :=
  (subprocessCall sh command).andThen fun code =>
    perform sh (.show file) ;; Script.when (decide (code ≠ 0)) (.exit code)

/-- `test:59-89`, `test_module`. -/
def testModule (sh : Shell) (root : Str) (a : TestArgs) (m : OclintModule) : Script Unit :=
  returning sh (pathMkdirP sh (moduleTestDir root m) ;;
    perform sh (.enter (moduleTestDir root m)) ;;
    processCall sh (testCommand root a (moduleExtras root (moduleTestDir root) m)
      (moduleSourceDir root m)) ;;
    makeOrNinja sh a.noNinja a.j ;;
    Script.when (!a.asDep) (
      Script.when (decide (m = .rules)) (installClangHeaders sh root) ;;
      callAndShow sh ("ctest --output-on-failure > ".toList ++ testResultPath root m)
        (testResultPath root m)))

/-- `test:91-115`. -/
def testScript (sh : Shell) (root : Str) (a : TestArgs) : Script Unit :=
  useLlvmClang sh a.llvmRoot a.useLlvmClang ;;
  Script.when a.showResults (
    Script.each (chosenModules a.moduleName) (fun m => perform sh (.show (testResultPath root m))) ;;
    .exit 0) ;;
  Script.when a.clean (Script.each (chosenModules a.moduleName) fun m =>
    pathRmF sh (moduleTestDir root m)) ;;
  Script.each (chosenModules a.moduleName) (testModule sh root a)

/-! ## The script `dogFooding` -/

/-- The options of `dogFooding` (`dogFooding:16-24`). -/
structure DogArgs where
  moduleName : Option OclintModule
  staticAnalyzer : Bool
  showResults : Bool
  llvmRoot : Str
  useLlvmClang : Bool

/-- `dogFooding:38-42`, `build_command`. -/
def dogCommand (a : DogArgs) (extras : List (Str × Str)) (source : Str) : Str :=
  cmakeStr (cmakeAppendDict
    (cmakeAppend "cmake".toList "CMAKE_EXPORT_COMPILE_COMMANDS".toList "ON".toList)
    (("LLVM_ROOT".toList, a.llvmRoot) :: extras)) source

/-- `dogFooding:69-71`, `result_path`. -/
def dogResultPath (root : Str) (m : OclintModule) : Str :=
  osPathJoin (moduleDogfoodingDir root m) "dogfooding_results.txt".toList

/-- `dogFooding:44-67`, `build_module`. -/
def dogBuildModule (sh : Shell) (root : Str) (a : DogArgs) (m : OclintModule) : Script Unit :=
  returning sh (pathMkdirP sh (moduleDogfoodingDir root m) ;;
    perform sh (.enter (moduleDogfoodingDir root m)) ;;
    processCall sh (dogCommand a (moduleExtras root (moduleOwnBuildDir root) m)
      (moduleSourceDir root m))) ;;
  perform sh (.copy (osPathJoin (moduleDogfoodingDir root m) "compile_commands.json".toList)
    (osPathJoin (moduleSourceDir root m) "compile_commands.json".toList))

/-- `dogFooding:79-83`: the command that checks a part. -/
def dogfoodingCommand (root : Str) (a : DogArgs) (m : OclintModule) : Str :=
  osPathJoin (osPathJoin (bundleRootDir root) "bin".toList) "oclint-json-compilation-database".toList
    ++ " -- -max-priority-1=0 -max-priority-2=0 -max-priority-3=0".toList
    ++ (if a.staticAnalyzer then " -enable-clang-static-analyzer".toList else [])
    ++ " -o ".toList ++ dogResultPath root m

/-- `dogFooding:77-91`, `dogfooding`. -/
def dogfooding (sh : Shell) (root : Str) (a : DogArgs) (m : OclintModule) : Script Unit :=
  returning sh (perform sh (.enter (moduleSourceDir root m)) ;;
    callAndShow sh (dogfoodingCommand root a m) (dogResultPath root m))

/-- `dogFooding:26-32`, `93-107`. -/
def dogScript (sh : Shell) (root : Str) (a : DogArgs) : Script Unit :=
  useLlvmClang sh a.llvmRoot a.useLlvmClang ;;
  Script.when a.showResults (
    Script.each (chosenModules a.moduleName) (fun m => perform sh (.show (dogResultPath root m))) ;;
    .exit 0) ;;
  Script.each (chosenModules a.moduleName) fun m =>
    pathRmF sh (moduleDogfoodingDir root m) ;; dogBuildModule sh root a m ;; dogfooding sh root a m

/-! ## The script `ci` -/

/-- The options of `ci` (`ci:11-17`). -/
structure CiArgs where
  reset : Bool
  setup : Bool
  release : Bool
  archive : Bool
  j : Int

/-- `ci:22-28`. -/
def ciReset (sh : Shell) (root : Str) : Script Unit :=
  pathRmF sh (buildRoot root) ;;
  pathRmF sh (osPathJoin root "llvm".toList) ;;
  pathRmF sh (googletestDir root) ;;
  pathRmF sh (osPathJoin root "oclint-json-compilation-database".toList) ;;
  pathRmF sh (osPathJoin root "oclint-xcodebuild".toList) ;;
  .exit 0

/-- `process.call(f'{sys.executable} …')`. -/
def callPython (sh : Shell) (rest : Str) : Script Unit :=
  processCall sh (sh.python ++ " ".toList ++ rest)

/-- `ci:30-40`; the addresses are in `path.py:66-70`. -/
def ciSetup (sh : Shell) (root : Str) (a : CiArgs) : Script Unit :=
  returning sh (perform sh (.enter root) ;;
    processCall sh ("git clone ".toList ++
      "https://github.com/oclint/oclint-json-compilation-database.git".toList) ;;
    Script.when sh.isDarwin (processCall sh ("git clone ".toList ++
      "https://github.com/oclint/oclint-xcodebuild.git".toList))) ;;
  callPython sh "clang".toList ;;
  Script.when (!a.release) (
    callPython sh "googleTest co".toList ;;
    callPython sh ("googleTest build -clean".toList ++ jFlag sh a.j))

/-- `ci:22-54`. -/
def ciScript (sh : Shell) (root : Str) (a : CiArgs) : Script Unit :=
  Script.when a.reset (ciReset sh root) ;;
  Script.when a.setup (ciSetup sh root a) ;;
  (if a.release then callPython sh ("build -clean -release".toList ++ jFlag sh a.j)
    else callPython sh ("test -clean".toList ++ jFlag sh a.j) ;;
      callPython sh ("build -clean".toList ++ jFlag sh a.j)) ;;
  callPython sh "bundle".toList ;;
  Script.when ((sh.isDarwin || sh.isLinux) && !a.release)
    (callPython sh "dogFooding -enable-clang-static-analyzer".toList) ;;
  Script.when a.archive (
    if a.release then callPython sh "bundle -archive -release".toList
    else callPython sh "bundle -archive".toList)

end Oclint
