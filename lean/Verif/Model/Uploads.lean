import Verif.Model.Bundle

/-!
# What the workflows upload

`environment.py`, with which `bundle` makes names for archives, and the last steps of
`.github/workflows/build.yaml`, `docgen.yaml` and `release.yaml`, which copy archives to a bucket.

Simplifications: `str.lower` of Python is only followed for letters of ASCII; of the patterns of `aws s3 cp`
only `*` is modelled, which the workflows use, and it stands for any characters, as it does there.
-/

namespace Oclint

/-- `platform.uname()`: the name of the system, its release, and the machine. -/
structure Uname where
  system : Str
  release : Str
  machine : Str
  deriving Repr, DecidableEq

/-- `environment.py:9-10`, `kernel`. -/
def Uname.kernel (u : Uname) : Str := u.system.map Char.toLower

/-- `environment.py:12-13`, `kernel_version`. -/
def Uname.kernelVersion (u : Uname) : Str := u.release

/-- `environment.py:15-16`, `arch`. -/
def Uname.arch (u : Uname) : Str := u.machine.map Char.toLower

/-- `environment.py:21-22`, `dist_env`. -/
def Uname.distEnv (u : Uname) : Str := u.arch ++ "-".toList ++ u.kernel ++ "-".toList ++ u.kernelVersion

/-- `environment.py:24-25`, `is_aarch64_or_arm64`. -/
def Uname.isArm (u : Uname) : Bool := "aarch64".toList.isPrefixOf u.arch || "arm64".toList.isPrefixOf u.arch

/-- `environment.py:27-28`, `is_darwin`. -/
def Uname.isDarwin (u : Uname) : Bool := "darwin".toList.isPrefixOf u.kernel

/-- `environment.py:30-31`, `is_linux`. -/
def Uname.isLinux (u : Uname) : Bool := "linux".toList.isPrefixOf u.kernel

/-- What `bundle` finds out on a machine. -/
def Uname.host (u : Uname) (root : Place) (commit : Str) : BundleHost :=
  ⟨root, commit, u.distEnv, u.isDarwin, u.isArm⟩

/-- What is left of a text after any of its beginnings. -/
def restsOf : Str → List Str
  | [] => [[]]
  | c :: cs => (c :: cs) :: restsOf cs

/-- Whether a name is one of a pattern; `*` stands for anything. -/
def globMatch : Str → Str → Bool
  | [], s => s.isEmpty
  | p :: ps, s =>
    if p = '*' then (restsOf s).any (globMatch ps)
    else
      match s with
      | [] => false
      | c :: cs => decide (p = c) && globMatch ps cs

/-- `aws s3 cp --recursive` with `--exclude` (`false`) and `--include` (`true`): the last pattern of a name
counts, and without one it is copied. -/
def awsCopied (filters : List (Bool × Str)) (name : Str) : Bool :=
  filters.foldl (fun r f => if globMatch f.2 name then f.1 else r) true

/-- `.github/workflows/build.yaml:28`, `docgen.yaml:27` and `release.yaml:32`. -/
def uploadFilters : List (Bool × Str) := [(false, "*".toList), (true, "oclint-*.tar.gz".toList)]

/-- The name that something below the directory `build` has for `aws`, if it is there. -/
def nameInBuild (root : Place) (p : Place) : Option Str :=
  if (root ++ ["build".toList]).isPrefixOf p then
    some (List.intercalate "/".toList (p.drop (root.length + 1)))
  else none

/-- Whether a file is copied. -/
def uploaded (root p : Place) : Bool := (nameInBuild root p).any (awsCopied uploadFilters)

end Oclint
