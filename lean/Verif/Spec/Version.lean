import Verif.Model.ReportRun

/-!
# Where a report states a version
-/

namespace Oclint.Spec

/-- Characters of versions. -/
def VersionLike (v : Str) : Prop := ∀ c ∈ v, c.isDigit = true ∨ c = '.'

/-- A report names `v` as the version of the program that wrote it. -/
def StatesVersion (v : Str) (s : Str) : ReporterPlugin → Prop
  | .html => ("'>OCLint v".toList ++ v ++ "</a>.</p></body></html>\n".toList) <:+ s
  | .json => ("{\"version\":\"".toList ++ v ++ "\",".toList) <+: s
  | .pmd => ("<?xml version=\"1.0\" encoding=\"UTF-8\"?>\n<pmd version=\"oclint-".toList ++ v
      ++ "\">".toList) <+: s
  | .text => ("\n[OCLint (https://oclint.org) v".toList ++ v ++ "]\n".toList) <:+ s
  | .xcode => False
  | .xml => ("<?xml version=\"1.0\" encoding=\"UTF-8\" ?><oclint version=\"".toList ++ v
      ++ "\" ".toList) <+: s

/-- The answer of a program to `-version`: the program and its page, the version, and the moment of the
build. -/
def VersionAnswer (program page v date time : Str) (s : Str) : Prop :=
  s = program ++ " (".toList ++ page ++ "):\n  ".toList ++ program ++ " version ".toList ++ v
    ++ ".\n  Built ".toList ++ date ++ " (".toList ++ time ++ ").\n".toList

end Oclint.Spec
