import Verif.Model.Version

/-!
# Assembling a release

Models the script `oclint-scripts/bundle` after `argparse` has read the command line, with the functions
of `oclintscripts/path.py` it uses.

Simplifications: a place on the disk is the list of the names that lead to it, so `.`, `..` and repeated
slashes do not occur; permissions and full disks are left out, so an operation fails only for the reasons
below; directories that are copied have no links in them, whose targets would be copied instead; a command
`ln -s` or a copy of a file whose name is already taken by a directory fails, while the real ones write
into that directory.  An exception that nobody catches and a command that fails end the script: `none`.
-/

namespace Oclint

/-- A place on the disk: the names that lead to it. -/
abbrev Place := List Str

/-- What can be at a place. -/
inductive Item where
  | dir
  | file (text : Str)
  | link (target : Str)
deriving DecidableEq, Repr

/-- A disk: the first entry for a place counts.  An archive is kept apart, as the entries packed in it. -/
structure FileTree where
  entries : List (Place × Item)
  tarballs : List (Place × List (Place × Item)) := []

/-- The first entry for a place. -/
def lookup (entries : List (Place × Item)) (p : Place) : Option Item :=
  (entries.find? fun e => decide (e.1 = p)).map (·.2)

/-- What is at a place. -/
def FileTree.item (t : FileTree) (p : Place) : Option Item := lookup t.entries p

/-- `os.path.isdir`; links are left out. -/
def FileTree.isDir (t : FileTree) (p : Place) : Bool := decide (t.item p = some .dir)

/-- `os.path.isfile`; links are left out. -/
def FileTree.isFile (t : FileTree) (p : Place) : Bool :=
  match t.item p with
  | some (.file _) => true
  | _ => false

/-- Something new at a place. -/
def FileTree.put (t : FileTree) (p : Place) (i : Item) : FileTree :=
  { t with entries := (p, i) :: t.entries }

/-- The entries at and below a place. -/
def below' (d : Place) (entries : List (Place × Item)) : List (Place × Item) :=
  entries.filter fun e => decide (d <+: e.1)

/-- The entries elsewhere. -/
def elsewhere (d : Place) (entries : List (Place × Item)) : List (Place × Item) :=
  entries.filter fun e => !decide (d <+: e.1)

/-- The entries at and below `src`, now at and below `dst`. -/
def relocated (src dst : Place) (entries : List (Place × Item)) : List (Place × Item) :=
  (below' src entries).map fun e => (dst ++ e.1.drop src.length, e.2)

/-- `path.py:82-84`, `rm_f`. -/
def FileTree.rmF (t : FileTree) (d : Place) : FileTree :=
  if t.isDir d then { t with entries := elsewhere d t.entries } else t

/-- `os.makedirs`: it makes the directories that lead there too. -/
def FileTree.makedirs (t : FileTree) (d : Place) : Option FileTree :=
  if t.item d = none ∧ d.inits.all (fun q => decide (t.item q = none) || t.isDir q) then
    some { t with entries :=
      ((d.inits.filter fun q => decide (t.item q = none)).map fun q => (q, Item.dir)) ++ t.entries }
  else none

/-- `path.py:86-88`, `mkdir_p`. -/
def FileTree.mkdirP (t : FileTree) (d : Place) : Option FileTree :=
  if t.isDir d then some t else t.makedirs d

/-- `path.py:93-94`, `cp_r`, which is `shutil.copytree`. -/
def FileTree.copyTree (t : FileTree) (src dst : Place) : Option FileTree :=
  if t.isDir src then
    (t.makedirs dst).map fun t' => { t' with entries := relocated src dst t.entries ++ t'.entries }
  else none

/-- Writing a file: `open(p, 'w')`. -/
def FileTree.write (t : FileTree) (dir : Place) (name : Str) (text : Str) : Option FileTree :=
  if t.isDir dir ∧ t.isDir (dir ++ [name]) = false then some (t.put (dir ++ [name]) (.file text)) else none

/-- `path.py:90-91`, `cp`, of a file that is there. -/
def FileTree.copyFile (t : FileTree) (src dir : Place) (name : Str) : Option FileTree :=
  match t.item src with
  | some (.file text) => t.write dir name text
  | _ => none

/-- `ln -s target name` in a directory. -/
def FileTree.linkAt (t : FileTree) (dir : Place) (name target : Str) : Option FileTree :=
  if t.isDir dir ∧ t.item (dir ++ [name]) = none then some (t.put (dir ++ [name]) (.link target)) else none

/-- `path.py:79-80`, `mv`, which is `os.rename` of a directory: the new name is free, or that of an empty
directory. -/
def FileTree.move (t : FileTree) (src dst : Place) : Option FileTree :=
  if t.isDir src ∧ (t.item dst = none ∨ t.isDir dst ∧
      (t.entries.all fun e => !decide (dst <+: e.1 ∧ e.1 ≠ dst))) then
    some { t with entries := relocated src dst t.entries ++ elsewhere dst (elsewhere src t.entries) }
  else none

/-- What the script finds out about its surroundings. -/
structure BundleHost where
  /-- the directory of the project (`path.py:8`) -/
  root : Place
  /-- `version.dev_version()` -/
  commit : Str
  /-- `environment.dist_env()` -/
  distEnv : Str
  darwin : Bool
  arm : Bool

/-- The options of `bundle` (`bundle:20-25`). -/
structure BundleArgs where
  archive : Bool := false
  docgen : Bool := false
  release : Bool := false
  llvmRoot : Place

/-- `path.py:17-18`, `module_build_dir`. -/
def buildPlace (h : BundleHost) (name : Str) : Place := h.root ++ ["build".toList, name]

/-- `bundle:14`, `bundle_root_dir`. -/
def releasePlace (h : BundleHost) : Place := buildPlace h ("oclint-".toList ++ "release".toList)

/-- `bundle:15`, `bundle_bin_dir`. -/
def binPlace (h : BundleHost) : Place := releasePlace h ++ ["bin".toList]

/-- `bundle:16`, `bundle_lib_dir`. -/
def libPlace (h : BundleHost) : Place := releasePlace h ++ ["lib".toList]

/-- `bundle:17`, `bundle_lib_oclint_dir`. -/
def libOclintPlace (h : BundleHost) : Place := libPlace h ++ ["oclint".toList]

/-- `bundle:31-35`, `setup_release_dir`. -/
def setupReleaseDir (h : BundleHost) (t : FileTree) : Option FileTree :=
  (((t.rmF (releasePlace h)).mkdirP (releasePlace h)).bind fun t => t.mkdirP (libPlace h)).bind fun t =>
    t.mkdirP (libOclintPlace h)

/-- `bundle:91-94`: the licence of LLVM is looked for in two places; the last one looked at counts. -/
def llvmLicense (h : BundleHost) (a : BundleArgs) (t : FileTree) : Place :=
  if t.item (a.llvmRoot ++ ["LICENSE.TXT".toList]) ≠ none then a.llvmRoot ++ ["LICENSE.TXT".toList]
  else h.root ++ ["llvm".toList, "LICENSE.TXT".toList]

/-- `bundle:95-99`: what is added to the licence; `none` if it cannot be read. -/
def llvmLicenseText (t : FileTree) (p : Place) : Option Str :=
  match t.item p with
  | none => some []
  | some (.file text) => some ("\n".toList ++ ((pyLines text).take 44).flatten)
  | some _ => none

/-- `bundle:83-99`, `install_licenses`. -/
def installLicenses (h : BundleHost) (a : BundleArgs) (t : FileTree) : Option FileTree :=
  (t.write (releasePlace h) "LICENSE".toList []).bind fun t =>
    match t.item (h.root ++ ["LICENSE".toList]) with
    | some (.file text) =>
      (llvmLicenseText t (llvmLicense h a t)).bind fun more =>
        t.write (releasePlace h) "LICENSE".toList (text ++ more)
    | _ => none

/-- The links that are made, one after the other. -/
def makeLinks (dir : Place) : List (Str × Str) → FileTree → Option FileTree
  | [], t => some t
  | l :: ls, t => (t.linkAt dir l.1 l.2).bind (makeLinks dir ls)

/-- `bundle:37-43`, `install_binary`. -/
def installBinary (h : BundleHost) (a : BundleArgs) (t : FileTree) : Option FileTree :=
  (t.copyTree (buildPlace h "oclint-driver".toList ++ ["bin".toList]) (binPlace h)).bind
    (makeLinks (binPlace h) (bundleLinks h.commit a.release))

/-- `bundle:45-48`, `install_rules`. -/
def installRules (h : BundleHost) (t : FileTree) : Option FileTree :=
  t.copyTree (buildPlace h "oclint-rules".toList ++ ["rules.dl".toList])
    (libOclintPlace h ++ ["rules".toList])

/-- `bundle:50-53`, `install_reporters`. -/
def installReporters (h : BundleHost) (t : FileTree) : Option FileTree :=
  t.copyTree (buildPlace h "oclint-reporters".toList ++ ["reporters.dl".toList])
    (libOclintPlace h ++ ["reporters".toList])

/-- `bundle:55-58`, `install_clang_headers`. -/
def installCompilerHeaders (h : BundleHost) (a : BundleArgs) (t : FileTree) : Option FileTree :=
  t.copyTree (a.llvmRoot ++ ["lib".toList, "clang".toList]) (libPlace h ++ ["clang".toList])

/-- `bundle:60-65` and `67-73`: a program of another repository is installed if it is there. -/
def installHelper (h : BundleHost) (name : Str) (t : FileTree) : Option FileTree :=
  if t.isFile (h.root ++ [name, name]) then t.copyFile (h.root ++ [name, name]) (binPlace h) name else some t

/-- `bundle:75-81`, `install_cpp_headers`, on macOS. -/
def installCppHeaders (h : BundleHost) (a : BundleArgs) (t : FileTree) : Option FileTree :=
  if h.arm then some t
  else (t.mkdirP (releasePlace h ++ ["include".toList])).bind fun t =>
    t.copyTree (a.llvmRoot ++ ["include".toList, "c++".toList])
      (releasePlace h ++ ["include".toList, "c++".toList])

/-- `bundle:102-104`, the version in names. -/
def fullVersion (h : BundleHost) (a : BundleArgs) : Str :=
  if a.release then oclintVersion else oclintDevVersion h.commit

/-- `bundle:101-109`, `archive`: the directory is renamed and packed. -/
def archiveBundle (h : BundleHost) (a : BundleArgs) (t : FileTree) : Option FileTree :=
  (t.move (releasePlace h) (buildPlace h ("oclint-".toList ++ fullVersion h a))).map fun t =>
    { t with tarballs :=
      (buildPlace h ("oclint-".toList ++ (fullVersion h a ++ "-".toList ++ h.distEnv) ++ ".tar.gz".toList),
        relocated (buildPlace h ("oclint-".toList ++ fullVersion h a)) ["oclint-".toList ++ fullVersion h a]
          t.entries) :: t.tarballs }

/-- `bundle:111-121`: the release is put together. -/
def assembleBundle (h : BundleHost) (a : BundleArgs) (t : FileTree) : Option FileTree :=
  ((((setupReleaseDir h t).bind (installLicenses h a)).bind (installBinary h a)).bind
    (installRules h)).bind fun t =>
    if a.docgen then some t else
      (((installReporters h t).bind (installCompilerHeaders h a)).bind
        (installHelper h "oclint-json-compilation-database".toList)).bind fun t =>
          if h.darwin then (installHelper h "oclint-xcodebuild".toList t).bind (installCppHeaders h a)
          else some t

/-- `bundle:111-124`. -/
def bundleScript (h : BundleHost) (a : BundleArgs) (t : FileTree) : Option FileTree :=
  (assembleBundle h a t).bind fun t => if a.archive then archiveBundle h a t else some t

end Oclint
