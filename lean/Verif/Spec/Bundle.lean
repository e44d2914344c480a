import Verif.Model.Bundle

/-!
# What a release is made of

The contents of a release, place by place, in terms of what was on the disk before.
-/

namespace Oclint.Spec

/-- A disk on which everything is in a directory. -/
def SoundTree (t : FileTree) : Prop :=
  ∀ p q, q <+: p → q ≠ p → t.item p ≠ none → t.item q = some .dir

/-- Neither place is in the other. -/
def ApartPlaces (p q : Place) : Prop := ¬ p <+: q ∧ ¬ q <+: p

/-- The options under which the headers of C++ are part of a release. -/
def withCppHeaders (h : BundleHost) (a : BundleArgs) : Bool := !a.docgen && h.darwin && !h.arm

/-- What is copied: where to in the release, and where from. -/
def copied (h : BundleHost) (a : BundleArgs) : List (Place × Place) :=
  [(["bin".toList], h.root ++ ["build".toList, "oclint-driver".toList, "bin".toList]),
    (["lib".toList, "oclint".toList, "rules".toList],
      h.root ++ ["build".toList, "oclint-rules".toList, "rules.dl".toList])]
  ++ (if a.docgen then [] else
    [(["lib".toList, "oclint".toList, "reporters".toList],
        h.root ++ ["build".toList, "oclint-reporters".toList, "reporters.dl".toList]),
      (["lib".toList, "clang".toList], a.llvmRoot ++ ["lib".toList, "clang".toList])])
  ++ (if withCppHeaders h a then
    [(["include".toList, "c++".toList], a.llvmRoot ++ ["include".toList, "c++".toList])] else [])

/-- The directories a release is made of. -/
def ownDirectories (h : BundleHost) (a : BundleArgs) : List Place :=
  [[], ["lib".toList], ["lib".toList, "oclint".toList]]
    ++ (if withCppHeaders h a then [["include".toList]] else [])

/-- The programs of other repositories that are taken along. -/
def helpers (h : BundleHost) (a : BundleArgs) : List Str :=
  if a.docgen then []
  else "oclint-json-compilation-database".toList ::
    (if h.darwin then ["oclint-xcodebuild".toList] else [])

/-- The text of such a program, if it is there. -/
def helperText (h : BundleHost) (t : FileTree) (name : Str) : Option Str :=
  match t.item (h.root ++ [name, name]) with
  | some (.file text) => some text
  | _ => none

/-- The names for the program: `oclint`, and one with the commit unless it is a release. -/
def programLinks (h : BundleHost) (a : BundleArgs) : List Str :=
  "oclint".toList :: (if a.release then [] else ["oclint-26.02.dev.".toList ++ h.commit])

/-- The licence of LLVM: the one that is installed, or else the one of the sources. -/
def llvmLicenseItem (h : BundleHost) (a : BundleArgs) (t : FileTree) : Option Item :=
  (t.item (a.llvmRoot ++ ["LICENSE.TXT".toList])).or (t.item (h.root ++ ["llvm".toList, "LICENSE.TXT".toList]))

/-- The licence of a release: the one of OCLint, then an empty line and the first 44 lines of LLVM's. -/
def licenseText (h : BundleHost) (a : BundleArgs) (t : FileTree) : Str :=
  (match t.item (h.root ++ ["LICENSE".toList]) with
    | some (.file text) => text
    | _ => []) ++
  (match llvmLicenseItem h a t with
    | some (.file text) => '\n' :: ((pyLines text).take 44).flatten
    | _ => [])

/-- What a release has at a place, seen from its own directory. -/
def released (h : BundleHost) (a : BundleArgs) (t : FileTree) (p : Place) : Option Item :=
  if p ∈ ownDirectories h a then some .dir
  else if p = ["LICENSE".toList] then some (.file (licenseText h a t))
  else if ∃ name ∈ programLinks h a, p = ["bin".toList, name] then some (.link "oclint-26.02".toList)
  else match (helpers h a).findSome? fun name =>
      if p = ["bin".toList, name] then helperText h t name else none with
    | some text => some (.file text)
    | none => ((copied h a).find? fun c => decide (c.1 <+: p)).bind fun c =>
        t.item (c.2 ++ p.drop c.1.length)

/-- Where a release is put together. -/
def releaseDirectory (h : BundleHost) : Place := h.root ++ ["build".toList, "oclint-release".toList]

/-- What has to be there for a release. -/
structure ReadyToBundle (h : BundleHost) (a : BundleArgs) (t : FileTree) : Prop where
  /-- an older release may be in the way, but nothing else -/
  free : t.item (releaseDirectory h) = none ∨ t.item (releaseDirectory h) = some .dir
  /-- there is a licence -/
  license : ∃ text, t.item (h.root ++ ["LICENSE".toList]) = some (.file text)
  /-- the licence of LLVM is a file, or there is none -/
  llvmLicense : llvmLicenseItem h a t = none ∨ ∃ text, llvmLicenseItem h a t = some (.file text)
  /-- everything that is copied was built or installed -/
  built : ∀ c ∈ copied h a, t.item c.2 = some .dir
  /-- the names for the program are not taken -/
  names : ∀ name ∈ programLinks h a,
    t.item (h.root ++ ["build".toList, "oclint-driver".toList, "bin".toList, name]) = none
  /-- the programs that are taken along do not replace directories -/
  programs : ∀ name ∈ helpers h a, helperText h t name ≠ none →
    t.item (h.root ++ ["build".toList, "oclint-driver".toList, "bin".toList, name]) ≠ some .dir

/-- What is read of LLVM is not in the release, nor the release in it. -/
structure ApartFromRelease (h : BundleHost) (a : BundleArgs) : Prop where
  license : ApartPlaces (releaseDirectory h) (a.llvmRoot ++ ["LICENSE.TXT".toList])
  headers : ApartPlaces (releaseDirectory h) (a.llvmRoot ++ ["lib".toList, "clang".toList])
  cppHeaders : ApartPlaces (releaseDirectory h) (a.llvmRoot ++ ["include".toList, "c++".toList])

/-- The version in the names of an archive. -/
def archivedAs (h : BundleHost) (a : BundleArgs) : Str :=
  if a.release then "oclint-26.02".toList else "oclint-26.02.dev.".toList ++ h.commit

/-- The directory a release is moved to before it is packed. -/
def archiveDirectory (h : BundleHost) (a : BundleArgs) : Place := h.root ++ ["build".toList, archivedAs h a]

end Oclint.Spec
