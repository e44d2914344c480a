import Verif.Model.Argparse

/-!
# The scripts that call other scripts

Models `googleTest`, and the shell scripts `docGen`, `make`,
`makeWithSystemLLVM` and `gh-actions` of `oclint-scripts`, which `sh -e` runs, with the lists of
`.github/workflows/tests.yaml`.  `build`, `test`, `googleTest` and `ci` are followed when a shell script
starts them; `clang`, `bundle` and everything else is a command like any other.

Simplifications: file names are not expanded (`*`, `?`, `[`); what is printed is left out.
-/

namespace Oclint

/-! ## The script `googleTest` -/

/-- `googleTest:36-41`, `build_command`, with `cmake.py:20-26`, `append`, which puts the value in quotes
here. -/
def gtestCommand (sh : Shell) (root : Str) : Str :=
  cmakeStr (if sh.isDarwin then cmakeAppend "cmake".toList "CMAKE_CXX_FLAGS".toList
      ("\"".toList ++ "-std=c++11 -stdlib=libc++ ${CMAKE_CXX_FLAGS}".toList ++ "\"".toList)
    else "cmake".toList) (googletestDir root)

/-- `googleTest:43-53`, `build_module`. -/
def gtestBuild (sh : Shell) (root : Str) (j : Int) : Script Unit :=
  returning sh (pathMkdirP sh (googletestBuildDir root) ;;
    perform sh (.enter (googletestBuildDir root)) ;;
    processCall sh (gtestCommand sh root) ;;
    processMake sh j)

/-- `googleTest:55-61`, `checkout_googletest`; `sys.exit` of a text ends with exit code 1. -/
def gtestCheckout (sh : Shell) (root : Str) : Script Unit := fun s =>
  if sh.isDir s.events (googletestDir root) then Script.exit 1 s
  else returning sh (perform sh (.enter root) ;;
    processCall sh ("git clone ".toList ++ "https://github.com/google/googletest.git".toList
      ++ " googletest".toList)) s

/-- `googleTest:63-69`, `update_googletest`. -/
def gtestUpdate (sh : Shell) (root : Str) : Script Unit := fun s =>
  if sh.isDir s.events (googletestDir root) then
    returning sh (perform sh (.enter (googletestDir root)) ;; processCall sh "git pull".toList) s
  else Script.exit 1 s

/-- `googleTest:24-30` and `71-80`. -/
def gtestScript (sh : Shell) (root : Str) (a : GtestArgs) : Script Unit :=
  useLlvmClang sh a.llvmRoot a.useLlvmClang ;;
  match a.task with
  | .checkout => gtestCheckout sh root
  | .update => gtestUpdate sh root
  | .build => Script.when a.clean (pathRmF sh (googletestBuildDir root)) ;; gtestBuild sh root a.j

/-! ## Shell scripts -/

/-- What differs between shells and machines. -/
structure PosixShell where
  /-- the status with which `sh -e` ends if `shift` or `cd` fails; it is not 0 -/
  builtinCode : Int
  /-- `test -s`: there is something with a size at a path -/
  hasSize : List ScriptEvent → Str → Bool
  /-- what `test ! -s` makes of two or more words after it; most often an error, which counts as no -/
  testOdd : List ScriptEvent → List Str → Bool

/-- A script of the project, started by a shell script: it has a working directory of its own, and if it
fails `sh -e` ends with its status. -/
def asProcess (p : Script Unit) : Script Unit := fun s =>
  if exitStatus (p s).1 = 0 then (.ok (), ⟨s.cwd, (p s).2.events⟩)
  else (.error (exitStatus (p s).1), ⟨s.cwd, (p s).2.events⟩)

/-- The status by which a shell knows how a command ended: for a signal 128 more than its number. -/
def shellStatus (code : Int) : Int := if code < 0 then 128 - code else code

/-- Another command in a shell script. -/
def shellCall (sh : Shell) (command : Str) : Script Unit :=
  (subprocessCall sh command).andThen fun code =>
    Script.when (decide (code ≠ 0)) (.exit (shellStatus code))

/-- `cd` in a shell script. -/
def shellCd (sh : Shell) (px : PosixShell) (dir : Str) : Script Unit := fun s =>
  if sh.works s.events (.enter (osPathJoin s.cwd dir)) then
    (.ok (), ⟨osPathJoin s.cwd dir, s.events ++ [.did (.enter (osPathJoin s.cwd dir))]⟩)
  else (.error px.builtinCode, s)

/-- The blanks at which a shell splits. -/
def isShellBlank (c : Char) : Bool := decide (c = ' ') || decide (c = '\t') || decide (c = '\n')

/-- The words a shell makes of a value that is not in quotes. -/
def shellFields (s : Str) : List Str := (s.splitOnP isShellBlank).filter fun w => decide (w ≠ [])

/-- A script of the project, started with words that `argparse` has read: it ends with status 2 if it does
not understand them, and with 0 if it is asked for help. -/
def startedWith {α : Type} (words : ParseResult α) (p : α → Script Unit) : Script Unit :=
  match words with
  | .parsed a => asProcess (p a)
  | .refused => .exit 2
  | .helped => .skip

/-! ## `docGen` -/

/-- `docGen:3-6`, one of the lines. -/
def docGenBuild (sh : Shell) (root : Str) (m : OclintModule) : Script Unit :=
  startedWith ((buildParser root).parse [m.name, "-docgen".toList, "-no-ninja".toList]) (buildScript sh root)

/-- `docGen:3-11`. -/
def docGenScript (sh : Shell) (px : PosixShell) (root : Str) : Script Unit :=
  docGenBuild sh root .core ;; docGenBuild sh root .metrics ;; docGenBuild sh root .rules ;;
  docGenBuild sh root .driver ;;
  shellCall sh "./bundle -docgen".toList ;;
  shellCall sh "mkdir -p ../build/oclint-docs/rules".toList ;;
  shellCall sh "../build/oclint-release/bin/oclint-docgen docgen".toList ;;
  shellCd sh px "../build/".toList ;;
  shellCall sh "tar zcf oclint-docs-dev-snapshot.tar.gz oclint-docs/".toList

/-! ## `make` -/

/-- `make:3-4`. -/
def makeScript (sh : Shell) (root : Str) (args : List Str) : Script Unit :=
  startedWith (ciParser.parse ("-reset".toList :: args)) (ciScript sh root) ;;
  startedWith (ciParser.parse ("-setup".toList :: "-release".toList :: args)) (ciScript sh root)

/-! ## `makeWithSystemLLVM` -/

/-- `makeWithSystemLLVM:12`: `test ! -s $LLVM_PATH`, where the shell has split the path into words.
Without any, `test` is asked whether `-s` is the empty text. -/
def testNoSize (px : PosixShell) (events : List ScriptEvent) : List Str → Bool
  | [] => false
  | [p] => !px.hasSize events p
  | ws => px.testOdd events ws

/-- `makeWithSystemLLVM:3-21`. -/
def systemLlvmScript (sh : Shell) (px : PosixShell) (root : Str) : List Str → Script Unit
  | [path] => fun s =>
    if testNoSize px s.events (shellFields path) then Script.exit 2 s
    else (startedWith ((buildParser root).parse
        (shellFields ("-llvm-root=".toList ++ path) ++ ["-release".toList, "-clean".toList]))
          (buildScript sh root) ;;
      shellCall sh ("./bundle -llvm-root=".toList ++ path ++ " -release".toList)) s
  | _ => .exit 1

/-! ## `gh-actions` -/

/-- `gh-actions:21` and `23`: the tests of a part, or only what others need of it. -/
def ghTest (sh : Shell) (root : Str) (asDep : Bool) (name : Str) : Script Unit :=
  startedWith ((testParser root).parse
    (name :: ((if asDep then ["-as-dep".toList] else []) ++ ["-no-ninja".toList]))) (testScript sh root)

/-- `gh-actions:13-15`, before any argument is looked at. -/
def ghPrepare (sh : Shell) (root : Str) : Script Unit :=
  shellCall sh "./clang".toList ;;
  startedWith ((gtestParser root).parse ["co".toList]) (gtestScript sh root) ;;
  startedWith ((gtestParser root).parse ["build".toList]) (gtestScript sh root)

/-- `gh-actions:3-24`; `shift` fails if there is nothing left. -/
def ghActionsScript (sh : Shell) (px : PosixShell) (root : Str) (args : List Str) : Script Unit :=
  if args.head? = some "build".toList then
    shellCall sh "./clang".toList ;;
    startedWith ((buildParser root).parse ["-no-ninja".toList]) (buildScript sh root) ;;
    shellCall sh "./bundle -archive".toList
  else if args.head? = some "docgen".toList then
    shellCall sh "./clang".toList ;; asProcess (docGenScript sh px root)
  else ghPrepare sh root ;;
    match args with
    | _ :: name :: deps =>
      Script.each (deps.flatMap shellFields) (ghTest sh root true) ;; ghTest sh root false name
    | _ => .exit px.builtinCode

/-- `.github/workflows/tests.yaml:15`: the parts that are tested, each on its own. -/
def workflowModules : List Str :=
  ["core".toList, "metrics".toList, "rules".toList, "reporters".toList, "driver".toList]

/-- `.github/workflows/tests.yaml:16-26` and `56-66`: what each part is tested with. -/
def workflowDeps : List (Str × Str) :=
  [("core".toList, "".toList), ("metrics".toList, "".toList), ("rules".toList, "core metrics".toList),
    ("reporters".toList, "core".toList), ("driver".toList, "core".toList)]

/-- `.github/workflows/tests.yaml:33`: `./gh-actions test $MODULE $DEPS`, where the shell splits the
values. -/
def workflowTestArgs (name deps : Str) : List Str :=
  "test".toList :: (shellFields name ++ shellFields deps)

end Oclint
