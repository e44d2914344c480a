import Verif.Model.Bundle

/-!
# Setting up LLVM

Models the script `oclint-scripts/clang` on the disks of `Bundle`.  The download, the unpacking and the
programs `ar` and `llc` are parameters; a static library is the list of its members.

Simplifications: those of `Bundle`; what is printed is left out; `str.lower` is that of ASCII, which finds
the same names here; `glob` lists names in any order, a parameter where the order can be seen.
-/

namespace Oclint

/-! ## Static libraries -/

/-- A member of a static library: its name and its contents. -/
abbrev Member := Str × Str

/-- What the programs that are called do. -/
structure LibraryTools where
  /-- the object file that `llc` makes of a file; `none` if it fails or writes nothing -/
  llc : Str → Option Str
  /-- the order in which `glob` lists the files of a directory -/
  order : List Member → List Member
  /-- whether `ar x` succeeds -/
  extracts : Bool
  /-- whether `ar r` succeeds -/
  repacks : Bool

/-- A file of a name is written, in place of an older one. -/
def putMember (m : Member) : List Member → List Member
  | [] => [m]
  | x :: xs => if x.1 = m.1 then m :: xs else x :: putMember m xs

/-- `clang:88`, `ar x`: the members are written as files, one after the other. -/
def extractMembers (members : List Member) : List Member :=
  members.foldl (fun files m => putMember m files) []

/-- The pattern `*.o` of `glob`. -/
def objectName (name : Str) : Bool :=
  decide (".o".toList <:+ name) && !decide (name.head? = some '.')

/-- `clang:25-35`, `try_convert_to_native`: the file afterwards, and whether it was converted. -/
def tryConvert (tools : LibraryTools) (m : Member) : Member × Bool :=
  match tools.llc m.2 with
  | some native => ((m.1, native), true)
  | none => (m, false)

/-- `clang:85-119`: what becomes of a library. -/
def convertLibrary (tools : LibraryTools) (members : List Member) : List Member :=
  if tools.extracts then
    let objects := tools.order ((extractMembers members).filter fun m => objectName m.1)
    let converted := objects.map (tryConvert tools)
    if converted.any (·.2) && tools.repacks then converted.map (·.1) else members
  else members

/-! ## Finding llc -/

/-- `clang:52-57`. -/
def homebrewPaths : List Str :=
  ["/opt/homebrew/opt/llvm@21/bin/llc".toList, "/opt/homebrew/opt/llvm/bin/llc".toList,
    "/usr/local/opt/llvm@21/bin/llc".toList, "/usr/local/opt/llvm/bin/llc".toList]

/-- `clang:37-62`, `find_llc`; `installed` is `llc` in the directory of LLVM, `inPath` what
`shutil.which` finds. -/
def findLlc (existsAt : Str → Bool) (darwin : Bool) (installed : Str) (inPath : Option Str) : Option Str :=
  if existsAt installed then some installed
  else match inPath with
    | some p => some p
    | none => if darwin then homebrewPaths.find? existsAt else none

/-! ## Removing the library of C++ -/

/-- The names in a directory. -/
def FileTree.names (t : FileTree) (d : Place) : List Str :=
  (t.entries.filterMap fun e => if d <+: e.1 then
    (match e.1.drop d.length with
      | [n] => if t.item e.1 = none then none else some n
      | _ => none) else none).dedup

/-- `os.remove`: not for directories. -/
def FileTree.removeFile (t : FileTree) (p : Place) : Option FileTree :=
  match t.item p with
  | some (.file _) | some (.link _) => some { t with entries := t.entries.filter fun e => !decide (e.1 = p) }
  | _ => none

/-- `shutil.rmtree`. -/
def FileTree.rmtree (t : FileTree) (d : Place) : Option FileTree :=
  if t.isDir d then some { t with entries := elsewhere d t.entries } else none

/-- One operation after the other. -/
def inTurn (op : Str → FileTree → Option FileTree) : List Str → FileTree → Option FileTree
  | [], t => some t
  | n :: ns, t => (op n t).bind (inTurn op ns)

/-- `clang:169-171`: the files whose names begin as told are removed. -/
def removeMatching (lib : Place) (pre : Str) (t : FileTree) : Option FileTree :=
  inTurn (fun n t => t.removeFile (lib ++ [n])) ((t.names lib).filter fun n => decide (pre <+: n)) t

/-- `clang:154-173`, `remove_bundled_libcxx`. -/
def removeLibcxx (root : Place) (t : FileTree) : Option FileTree :=
  ((removeMatching (root ++ ["lib".toList]) "libc++".toList t).bind
    (removeMatching (root ++ ["lib".toList]) "libc++abi".toList)).bind
    (removeMatching (root ++ ["lib".toList]) "libunwind".toList)

/-- `os.path.exists`, then `shutil.rmtree` (`clang:141-143`, `150-152`). -/
def rmtreeIfThere (d : Place) (t : FileTree) : Option FileTree :=
  if t.item d = none then some t else t.rmtree d

/-- Whether a text occurs in another. -/
def occursIn (word text : Str) : Bool := text.tails.any fun s => decide (word <+: s)

/-- `clang:148`. -/
def platformName (n : Str) : Bool :=
  occursIn "apple".toList (n.map Char.toLower) || occursIn "darwin".toList (n.map Char.toLower)

/-- `clang:123-152`, `remove_bundled_libcxx_headers`. -/
def removeLibcxxHeaders (darwin : Bool) (root : Place) (t : FileTree) : Option FileTree :=
  if darwin then
    (rmtreeIfThere (root ++ ["include".toList, "c++".toList]) t).bind fun t =>
      if t.isDir (root ++ ["include".toList]) then
        inTurn (fun n t => rmtreeIfThere (root ++ ["include".toList, n, "c++".toList]) t)
          ((t.names (root ++ ["include".toList])).filter platformName) t
      else none
  else some t

/-! ## The script -/

/-- `path.py:72`. -/
def urlMacArm : Str :=
  "https://github.com/llvm/llvm-project/releases/download/llvmorg-21.1.8/LLVM-21.1.8-macOS-ARM64.tar.xz".toList
/-- `path.py:73`. -/
def urlLinuxX64 : Str :=
  "https://github.com/llvm/llvm-project/releases/download/llvmorg-21.1.8/LLVM-21.1.8-Linux-X64.tar.xz".toList
/-- `path.py:74`. -/
def urlLinuxArm : Str :=
  "https://github.com/llvm/llvm-project/releases/download/llvmorg-21.1.8/LLVM-21.1.8-Linux-ARM64.tar.xz".toList

/-- `clang:179-185`: what is downloaded. -/
def llvmUrl (darwin arm : Bool) : Str :=
  if darwin then urlMacArm else if arm then urlLinuxArm else urlLinuxX64

/-- `path.py:44`, `clang_install_dir`. -/
def installPlace (h : BundleHost) : Place := buildPlace h "llvm-install".toList

/-- `clang:198-204`: what is taken away on macOS. -/
def trimLlvm (h : BundleHost) (t : FileTree) : Option FileTree :=
  if h.darwin then (removeLibcxx (installPlace h) t).bind (removeLibcxxHeaders h.darwin (installPlace h))
  else some t

/-- The options and the steps of `clang` that are not modelled: the download of an address, the unpacking,
and the conversion of libraries. -/
structure LlvmSteps where
  clean : Bool
  skipConvert : Bool
  download : Str → FileTree → Option FileTree
  unpack : FileTree → Option FileTree
  convert : FileTree → FileTree

/-- `clang:208-210` with `19-23` and `175-206`. -/
def clangScript (h : BundleHost) (s : LlvmSteps) (t : FileTree) : Option FileTree :=
  ((((((if s.clean then (t.rmF (buildPlace h "llvm".toList)).rmF (installPlace h) else t).mkdirP
    (buildPlace h "llvm".toList)).bind (s.download (llvmUrl h.darwin h.arm))).bind fun t =>
      t.mkdirP (installPlace h)).bind s.unpack).map fun t => if s.skipConvert then t else s.convert t).bind
    (trimLlvm h)

end Oclint
