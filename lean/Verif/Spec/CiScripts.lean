import Verif.Model.CiScripts
import Verif.Spec.BuildScripts
import Verif.Spec.Argparse
import Mathlib.Data.List.Forall2

/-!
# Specification of the scripts that call other scripts
-/

namespace Oclint.Spec
open Oclint

/-- The words of a text: what is between blanks. -/
inductive FieldsOf : Str → List Str → Prop where
  | nothing : FieldsOf [] []
  | blank {b : Char} {s : Str} {ws : List Str} : b = ' ' ∨ b = '\t' ∨ b = '\n' → FieldsOf s ws →
      FieldsOf (b :: s) ws
  /-- a word that goes on to the end -/
  | last {w : Str} : w ≠ [] → ' ' ∉ w → '\t' ∉ w → '\n' ∉ w → FieldsOf w [w]
  /-- a word and a blank after it -/
  | word {w s : Str} {b : Char} {ws : List Str} : w ≠ [] → ' ' ∉ w → '\t' ∉ w → '\n' ∉ w →
      b = ' ' ∨ b = '\t' ∨ b = '\n' → FieldsOf s ws → FieldsOf (w ++ b :: s) (w :: ws)

/-- A line of a shell script. -/
inductive ShellLine where
  /-- start a script of the project; what it does, and its status -/
  | script (run : ScriptState → Int × ScriptState)
  /-- start something else -/
  | command (text : Str)
  /-- go to another directory -/
  | goto (dir : Str)
  /-- end, if `code` is not 0 -/
  | stop (code : Int)

/-- One line after the other until one fails; `failure` is the status if a directory cannot be entered. -/
def inTurn (sh : Shell) (failure : Int) : List ShellLine → ScriptState → Int × ScriptState
  | [], s => (0, s)
  | .script run :: rest, s =>
    let r := run s
    if r.1 = 0 then inTurn sh failure rest ⟨s.cwd, r.2.events⟩ else (r.1, ⟨s.cwd, r.2.events⟩)
  | .command text :: rest, s =>
    let code := sh.run s.events s.cwd text
    let s' : ScriptState := ⟨s.cwd, s.events ++ [.ran s.cwd text code]⟩
    if code = 0 then inTurn sh failure rest s'
    else ((if 0 < code then code else 128 - code) % 256, s')
  | .goto dir :: rest, s =>
    if sh.works s.events (.enter (slashed s.cwd ++ dir)) then
      inTurn sh failure rest
        ⟨slashed s.cwd ++ dir, s.events ++ [.did (.enter (slashed s.cwd ++ dir))]⟩
    else (failure % 256, s)
  | .stop code :: _, s => (code % 256, s)

/-! ## `googleTest` -/

/-- Where GoogleTest is kept. -/
def gtestSources (root : Str) : Str := root ++ "/googletest".toList

/-- Where GoogleTest is built. -/
def gtestDir (root : Str) : Str := root ++ "/build/googletest/lib".toList

/-- The words with which CMake is called for GoogleTest. -/
def gtestWords (darwin : Bool) (root : Str) : List Str :=
  ["cmake".toList] ++ (if darwin then define "CMAKE_CXX_FLAGS".toList
    "\"-std=c++11 -stdlib=libc++ ${CMAKE_CXX_FLAGS}\"".toList else []) ++ [gtestSources root]

/-- How GoogleTest is fetched. -/
def gtestClone : Str := unwords ["git".toList, "clone".toList,
  "https://github.com/google/googletest.git".toList, "googletest".toList]

/-- What `googleTest` does, and its status. -/
def gtestRun (sh : Shell) (root : Str) (a : GtestArgs) (s : ScriptState) : Int × ScriptState :=
  let s1 := if a.useLlvmClang then (doStep sh s (.compiler a.llvmRoot)).2 else s
  match a.task with
  | .checkout =>
    if sh.isDir s1.events (gtestSources root) then (1, s1)
    else carryOut sh [.act (.enter root), .run gtestClone, .act (.enter s.cwd)] s1
  | .update =>
    if sh.isDir s1.events (gtestSources root) then
      carryOut sh [.act (.enter (gtestSources root)), .run "git pull".toList, .act (.enter s.cwd)] s1
    else (1, s1)
  | .build => carryOut sh ((if a.clean then [.clear (gtestDir root)] else []) ++
      [.ensure (gtestDir root), .act (.enter (gtestDir root)), .run (unwords (gtestWords sh.isDarwin root)),
        .run (builder sh.cpuCount true a.j), .act (.enter s.cwd)]) s1

/-! ## Shell scripts -/

/-- Where LLVM is unless another place is named. -/
def ownLlvm (root : Str) : Str := root ++ "/build/llvm-install".toList

/-- `build` as a line of a shell script. -/
def buildLine (sh : Shell) (root : Str) (a : BuildArgs) : ShellLine :=
  .script fun s => carryOut sh (buildSteps sh.cpuCount root s.cwd a) s

/-- The options of `build` that are not named: an ordinary build, with as many jobs as there are
processors, by the compiler of the system. -/
def buildOptions (llvmRoot : Str) : BuildArgs :=
  { moduleName := none, docgen := false, release := false, clean := false, j := 0, llvmRoot := llvmRoot,
    noNinja := false, useLlvmClang := false }

/-- `googleTest` as a line of a shell script. -/
def gtestLine (sh : Shell) (root : Str) (task : GtestTask) : ShellLine :=
  .script (gtestRun sh root
    { task := task, clean := false, j := 0, llvmRoot := ownLlvm root, useLlvmClang := false })

/-- `ci` as a line of a shell script. -/
def ciLine (sh : Shell) (root : Str) (a : CiArgs) : ShellLine :=
  .script fun s => carryOut sh (ciSteps sh.python sh.cpuCount sh.isDarwin (sh.isDarwin || sh.isLinux)
    root s.cwd a) s

/-- The lines of `make`. -/
def makeLines (sh : Shell) (root : Str) (x : CiArgs) : List ShellLine :=
  [ciLine sh root { x with reset := true }, ciLine sh root { x with setup := true, release := true }]

/-- `MakeLines … words lines`: the lines of `make`, by what `ci` makes of the words. -/
inductive MakeLines (sh : Shell) (root : Str) (ws : List Str) : List ShellLine → Prop where
  | asked {x : CiArgs} : ciParser.parse ws = .parsed x → MakeLines sh root ws (makeLines sh root x)
  | refused : ciParser.parse ws = .refused → MakeLines sh root ws [.stop 2]
  | help : ciParser.parse ws = .helped → MakeLines sh root ws []

/-- A script that is started with words, as a line of a shell script, by what they ask for. -/
def askedLine {α : Type} (line : α → ShellLine) : ParseResult α → ShellLine
  | .parsed a => line a
  | .refused => .stop 2
  | .helped => .script fun s => (0, s)

/-- The lines of `docGen`: what documentation needs is built, a release of it is put together, and the
program in it writes the documents, which are packed. -/
def docGenLines (sh : Shell) (root : Str) : List ShellLine :=
  [OclintModule.core, .metrics, .rules, .driver].map (fun m => buildLine sh root
    { buildOptions (ownLlvm root) with moduleName := some m, docgen := true, noNinja := true }) ++
  [.command "./bundle -docgen".toList, .command "mkdir -p ../build/oclint-docs/rules".toList,
    .command "../build/oclint-release/bin/oclint-docgen docgen".toList, .goto "../build/".toList,
    .command "tar zcf oclint-docs-dev-snapshot.tar.gz oclint-docs/".toList]

/-- `NamesPart w o`: the word names a part of the project, or all of them. -/
inductive NamesPart : Str → Option OclintModule → Prop where
  | all : NamesPart "all".toList none
  | core : NamesPart "core".toList (some .core)
  | metrics : NamesPart "metrics".toList (some .metrics)
  | rules : NamesPart "rules".toList (some .rules)
  | reporters : NamesPart "reporters".toList (some .reporters)
  | driver : NamesPart "driver".toList (some .driver)

/-- The options with which parts are tested. -/
def ghTestArgs (root : Str) (asDep : Bool) (o : Option OclintModule) : TestArgs :=
  { moduleName := o, showResults := false, clean := false, j := 0, asDep := asDep,
    llvmRoot := ownLlvm root, noNinja := true, useLlvmClang := false }

/-- `test` as a line of a shell script. -/
def testLine (sh : Shell) (root : Str) (a : TestArgs) : ShellLine :=
  .script fun s => carryOut sh (testSteps sh.cpuCount sh.tempDir root s.cwd a) s

/-- `TestLine … w line`: what `test w` is: if `w` is no name of a part it fails at once, and if it may be an
option, it is what `test` makes of it. -/
inductive TestLine (sh : Shell) (root : Str) (asDep : Bool) : Str → ShellLine → Prop where
  | part {w : Str} {o : Option OclintModule} : NamesPart w o →
      TestLine sh root asDep w (testLine sh root (ghTestArgs root asDep o))
  | unknown {w : Str} : Plain w → (∀ o, ¬ NamesPart w o) → TestLine sh root asDep w (.stop 2)
  | option {w : Str} : ¬ Plain w → TestLine sh root asDep w (askedLine (testLine sh root)
      ((testParser root).parse (w :: ((if asDep then ["-as-dep".toList] else []) ++ ["-no-ninja".toList]))))

/-- What is there before parts are tested. -/
def ghPrepareLines (sh : Shell) (root : Str) : List ShellLine :=
  [.command "./clang".toList, gtestLine sh root .checkout, gtestLine sh root .build]

/-- `GhLines … args lines`: the lines of `gh-actions`. -/
inductive GhLines (sh : Shell) (failure : Int) (root : Str) : List Str → List ShellLine → Prop where
  | build {rest : List Str} : GhLines sh failure root ("build".toList :: rest)
      [.command "./clang".toList, buildLine sh root { buildOptions (ownLlvm root) with noNinja := true },
        .command "./bundle -archive".toList]
  | docgen {rest : List Str} : GhLines sh failure root ("docgen".toList :: rest)
      [.command "./clang".toList, .script (inTurn sh failure (docGenLines sh root))]
  /-- the part to test is missing -/
  | missing {args : List Str} : args.length < 2 → args ≠ ["build".toList] → args ≠ ["docgen".toList] →
      GhLines sh failure root args (ghPrepareLines sh root ++ [.stop failure])
  | test {what name : Str} {deps : List Str} {words : List (List Str)} {depLines : List ShellLine}
      {line : ShellLine} : what ≠ "build".toList → what ≠ "docgen".toList →
      List.Forall₂ FieldsOf deps words →
      List.Forall₂ (TestLine sh root true) words.flatten depLines → TestLine sh root false name line →
      GhLines sh failure root (what :: name :: deps) (ghPrepareLines sh root ++ depLines ++ [line])

/-- The commands of a job that tests the part `m` with the parts `deps`. -/
def ghTestPlan (sh : Shell) (root here : Str) (deps : List OclintModule) (m : OclintModule) :
    List Planned :=
  [(here, "./clang".toList), (root, gtestClone), (gtestDir root, unwords (gtestWords sh.isDarwin root)),
    (gtestDir root, builder sh.cpuCount true 0)]
  ++ deps.flatMap (fun d => testPlan sh.cpuCount root (ghTestArgs root true (some d)) [d])
  ++ testPlan sh.cpuCount root (ghTestArgs root false (some m)) [m]

/-- `SystemBuild … words line`: what `build` is in `makeWithSystemLLVM`, called with the words of
`-llvm-root=` and the path: a second word is the name of a part, and more are not understood, unless they
may be options. -/
inductive SystemBuild (sh : Shell) (root : Str) : List Str → ShellLine → Prop where
  | everything (r : Str) : SystemBuild sh root ["-llvm-root=".toList ++ r]
      (buildLine sh root { buildOptions r with release := true, clean := true })
  | part (r : Str) {m : Str} {o : Option OclintModule} : NamesPart m o →
      SystemBuild sh root ["-llvm-root=".toList ++ r, m]
        (buildLine sh root { buildOptions r with moduleName := o, release := true, clean := true })
  | unknown (r : Str) {m : Str} : Plain m → (∀ o, ¬ NamesPart m o) →
      SystemBuild sh root ["-llvm-root=".toList ++ r, m] (.stop 2)
  | many (r : Str) {ws : List Str} : 2 ≤ ws.length → (∀ w ∈ ws, Plain w) →
      SystemBuild sh root (("-llvm-root=".toList ++ r) :: ws) (.stop 2)
  | option (r : Str) {ws : List Str} : (∃ w ∈ ws, ¬ Plain w) →
      SystemBuild sh root (("-llvm-root=".toList ++ r) :: ws) (askedLine (buildLine sh root)
        ((buildParser root).parse (("-llvm-root=".toList ++ r) :: ws ++ ["-release".toList, "-clean".toList])))

/-- `Refuses … words`: `test ! -s` says of the words of a path that nothing is there. -/
inductive Refuses (px : PosixShell) (events : List ScriptEvent) : List Str → Prop where
  | one {p : Str} : px.hasSize events p = false → Refuses px events [p]
  | odd {ws : List Str} : 2 ≤ ws.length → px.testOdd events ws = true → Refuses px events ws

/-- Codes as the system reports them: an exit status, or the negated number of a signal, of which there
are less than 128. -/
def Usual (sh : Shell) : Prop := ∀ ev c cmd, -128 < sh.run ev c cmd ∧ sh.run ev c cmd < 256

end Oclint.Spec
