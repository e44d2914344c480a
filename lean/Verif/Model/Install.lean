import Verif.Model.Options

/-!
# Where the program and its parts are

Models `preserveExecutablePath` (`oclint-driver/lib/Options.cpp:190-204`), which finds the directory of
the running program, and the layout that the script `oclint-scripts/bundle` builds.  LLVM's path
functions are modelled from their documented behaviour on POSIX systems.  Simplification: for paths
that neither end in `/` nor begin with two slashes; `current_path` yields one of several names of the
working directory, here `cwd`.
-/

namespace Oclint

/-- `llvm::sys::path::filename`: what follows the last slash. -/
def fileName (p : Str) : Str := (p.reverse.takeWhile (· ≠ '/')).reverse

/-- `llvm::sys::path::parent_path`: what precedes the last run of slashes, the root if nothing does. -/
def parentPath (p : Str) : Str :=
  match (p.reverse.dropWhile (· ≠ '/')).dropWhile (· = '/') with
  | [] => if p.head? = some '/' then ['/'] else []
  | d => d.reverse

/-- `llvm::sys::path::append`. -/
def appendPath (dir name : Str) : Str :=
  if dir = [] ∨ dir.getLast? = some '/' then dir ++ name else dir ++ '/' :: name

/-- `llvm::SplitString(text, _, ":")`: the pieces between colons that are not empty. -/
def splitColons (text : Str) : List Str := (List.splitOn ':' text).filter (· ≠ [])

/-- What the process finds when it starts: `getcwd` (`none` if it fails), `PATH` and whether a path
names an executable file (`llvm::sys::fs::can_execute`). -/
structure Process where
  cwd : Option Str
  path : Option Str
  canExecute : Str → Bool

/-- `llvm::sys::findProgramByName`. -/
def findProgramByName (w : Process) (name : Str) : Option Str :=
  if '/' ∈ name then some name
  else
    match w.path with
    | none => none
    | some text =>
      ((splitColons text).map fun dir => appendPath dir name).find? w.canExecute

/-- `llvm::sys::fs::make_absolute`; it leaves the path as it is if the working directory is unknown. -/
def makeAbsolute (w : Process) (p : Str) : Str :=
  if p.head? = some '/' then p
  else
    match w.cwd with
    | none => p
    | some cwd => appendPath cwd p

/-- `Options.cpp:192-201`: the path of the program before it is made absolute. -/
def installedPath (w : Process) (argv : Str) : Str :=
  if fileName argv = argv then (findProgramByName w (fileName argv)).getD argv else argv

/-- `Options.cpp:190-204`, `preserveExecutablePath`; the result is stored in `executablePath`. -/
def preserveExecutablePath (w : Process) (argv : Str) : Str :=
  parentPath (makeAbsolute w (installedPath w argv))

/-! ## The bundle -/

/-- `os.path.join` of two paths. -/
def osPathJoin (a b : Str) : Str :=
  if b.head? = some '/' then b
  else if a = [] ∨ a.getLast? = some '/' then a ++ b else a ++ '/' :: b

/-- `oclint-scripts/oclintscripts/path.py:9`, `build_root`. -/
def buildRoot (rootDir : Str) : Str := osPathJoin rootDir "build".toList

/-- `path.py:17-18`, `module_build_dir`. -/
def moduleBuildDir (rootDir name : Str) : Str := osPathJoin (buildRoot rootDir) name

/-- `path.py:20-21`, `oclint_module_build_dir`. -/
def oclintModuleBuildDir (rootDir name : Str) : Str :=
  moduleBuildDir rootDir ("oclint-".toList ++ name)

/-- `path.py:53`, `bundle_dir`, which is `bundle_root_dir` (`bundle:14`). -/
def bundleRootDir (rootDir : Str) : Str := oclintModuleBuildDir rootDir "release".toList

/-- `bundle:15`, `bundle_bin_dir`. -/
def bundleBinDir (bundle : Str) : Str := osPathJoin bundle "bin".toList

/-- `bundle:16`, `bundle_lib_dir`. -/
def bundleLibDir (bundle : Str) : Str := osPathJoin bundle "lib".toList

/-- `bundle:17`, `bundle_lib_oclint_dir`. -/
def bundleLibOclintDir (bundle : Str) : Str := osPathJoin (bundleLibDir bundle) "oclint".toList

/-- `bundle:37-43`, `install_binary`: the programs, `oclint-<version>` and the links to it. -/
def bundlePrograms (version devVersion bundle : Str) (isRelease : Bool) : List Str :=
  [osPathJoin (bundleBinDir bundle) ("oclint-".toList ++ version),
    osPathJoin (bundleBinDir bundle) "oclint".toList]
    ++ (if isRelease then []
      else [osPathJoin (bundleBinDir bundle) ("oclint-".toList ++ devVersion)])

/-- `bundle:45-48`, `install_rules`: where the rules are copied to. -/
def bundleRules (bundle : Str) : Str := osPathJoin (bundleLibOclintDir bundle) "rules".toList

/-- `bundle:50-53`, `install_reporters`: where the reporters are copied to. -/
def bundleReporters (bundle : Str) : Str := osPathJoin (bundleLibOclintDir bundle) "reporters".toList

/-- `bundle:101-109`, `archive`: the directory the bundle is moved to. -/
def archiveDir (rootDir version devVersion : Str) (isRelease : Bool) : Str :=
  oclintModuleBuildDir rootDir (if isRelease then version else devVersion)

end Oclint
