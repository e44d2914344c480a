import Verif.Model.CMake
import Verif.Spec.Scaffold

/-!
# Which plug-ins should be built
-/

namespace Oclint.Spec
open Oclint

/-- Letters, digits and underscores. -/
def PlainName (s : Str) : Prop := s ≠ [] ∧ ∀ c ∈ s, c.isAlphanum = true ∨ c = '_'

/-- The words that mean something to `SET`. -/
def setWords : List Str := ["CACHE".toList, "PARENT_SCOPE".toList]

/-- A request whose names can be put into a list without quotes. -/
structure ListedRequest (r : RuleRequest) : Prop where
  category : PlainName r.category
  className : PlainName r.className
  noSetWord : r.className ∉ setWords
  name : Braceless r.name

/-- The directory of the rules. -/
def rulesPlace (home : Str) : Str := home ++ "/../oclint-rules/rules".toList

/-- The plug-in of a request. -/
def requestedPlugin (home : Str) (r : RuleRequest) : Plugin :=
  ⟨r.className ++ "Rule".toList, ruleSource home r.category r.className⟩

/-- No two requests, and no request and a plug-in or library that there is, are for one name.  The
category does not matter. -/
structure FreshNames (built : List Plugin) (rs : List RuleRequest) : Prop where
  distinct : (rs.map (·.className)).Nodup
  new : ∀ r ∈ rs, ∀ p ∈ built, p.target ≠ r.className ++ "Rule".toList
  free : ∀ r ∈ rs, r.className ≠ "OCLintAbstract".toList

/-- A disk has the lists of the repository and every source of a rule that is in it. -/
structure ShippedDisk (root : Str) (sources : List (Str × Str)) (d : Disk) : Prop where
  top : d.file (root ++ "/CMakeLists.txt".toList) = some (cmText rootLines)
  lists : ∀ c ∈ categoryLists, d.file (root ++ "/".toList ++ c.1 ++ "/CMakeLists.txt".toList) =
    some (cmText c.2)
  sources : ∀ s ∈ sources, d.file (root ++ "/".toList ++ s.1 ++ "/".toList ++ s.2) ≠ none

/-! ## Reporters -/

/-- The plug-in of a request. -/
def requestedReporter (home : Str) (r : ReporterRequest) : Plugin :=
  ⟨r.className ++ "Reporter".toList, reporterSource home r.className⟩

/-- The reporters that come with OCLint. -/
def shippedReporterNames : List Str :=
  ["Text".toList, "HTML".toList, "XML".toList, "JSON".toList, "PMD".toList, "Xcode".toList]

/-- Request after request, until one fails; what is printed is left out. -/
def scaffoldReporters (home : Str) : Disk → List ReporterRequest → Ran
  | d, [] => ⟨d, none⟩
  | d, r :: rs =>
    match (scaffoldReporter home d r).2 with
    | ⟨d, none⟩ => scaffoldReporters home d rs
    | failed => failed

/-- The requests that are not refused: a source or a test of that name is neither there nor written for
an earlier request. -/
inductive Accepted (home : Str) : Disk → List ReporterRequest → List ReporterRequest → Prop
  | nil (d : Disk) : Accepted home d [] []
  | refused {d : Disk} {r : ReporterRequest} {rs as : List ReporterRequest} :
      Present d (reporterSource home r.className) ∨
        (r.tests = true ∧ Present d (reporterTestSource home r.className)) →
      Accepted home d rs as → Accepted home d (r :: rs) as
  | taken {d d' : Disk} {r : ReporterRequest} {rs as : List ReporterRequest} :
      ¬ Present d (reporterSource home r.className) →
      (r.tests = true → ¬ Present d (reporterTestSource home r.className)) →
      ReporterScaffolded home d r d' → Accepted home d' rs as → Accepted home d (r :: rs) (r :: as)

end Oclint.Spec
