import Verif.Model.ProjectLists
import Verif.Spec.CmakeCache

/-!
# What should be built of each part
-/

namespace Oclint.Spec
open Oclint

/-- The sources of a part that are no rules, reporters or tests. -/
def ownSources : OclintModule → List Str
  | .core => ["lib/AbstractResults.cpp", "lib/Constants.cpp", "lib/RawResults.cpp", "lib/ResultCollector.cpp",
      "lib/RuleBase.cpp", "lib/RuleCarrier.cpp", "lib/RuleConfiguration.cpp", "lib/RuleSet.cpp",
      "lib/UniqueResults.cpp", "lib/Violation.cpp", "lib/ViolationSet.cpp"].map String.toList
  | .metrics => ["lib/CyclomaticComplexityMetric.cpp", "lib/NPathComplexityMetric.cpp", "lib/NcssMetric.cpp",
      "lib/StmtDepthMetric.cpp"].map String.toList
  | .rules => ["lib/AbstractASTMatcherRule.cpp", "lib/AbstractASTRuleBase.cpp",
      "lib/AbstractSourceCodeReaderRule.cpp", "lib/helper/AttributeHelper.cpp", "lib/helper/EnforceHelper.cpp",
      "lib/helper/SuppressHelper.cpp", "lib/util/ASTUtil.cpp", "lib/util/StdUtil.cpp"].map String.toList
  | .reporters => []
  | .driver => ["lib/CompilerInstance.cpp", "lib/ConfigFile.cpp", "lib/DiagnosticDispatcher.cpp",
      "lib/Driver.cpp", "lib/GenericException.cpp", "lib/Logger.cpp", "lib/Options.cpp",
      "lib/RulesetBasedAnalyzer.cpp", "lib/RulesetFilter.cpp", "main.cpp", "main_docgen.cpp",
      "reporters_dlfcn_port.cpp", "rules_dlfcn_port.cpp"].map String.toList

/-- A part as it is in the repository. -/
def AsInRepository (d : Disk) (dir : Str) (m : OclintModule) : Prop :=
  (∀ x ∈ projectLists m, d.file (dir ++ "/".toList ++ x.1 ++ "CMakeLists.txt".toList) = some (cmText x.2)) ∧
  ∀ f ∈ ownSources m, d.file (dir ++ "/".toList ++ f) ≠ none

/-- The programs of a part, each with what it is made of. -/
def programs : OclintModule → Bool → List BuildTarget
  | .driver, documentation =>
    ⟨"oclint-26.02".toList, "bin/".toList, ["main.cpp".toList, "reporters_dlfcn_port.cpp".toList,
      "rules_dlfcn_port.cpp".toList]⟩ ::
    if documentation then [⟨"oclint-docgen".toList, "bin/".toList,
      ["main_docgen.cpp".toList, "rules_dlfcn_port.cpp".toList]⟩]
    else []
  | _, _ => []

/-- The libraries that other parts link with. -/
def libraries : OclintModule → List Str
  | .core => ["OCLintCore".toList, "OCLintRuleSet".toList]
  | .metrics => ["OCLintMetric".toList]
  | .rules => ["OCLintHelper".toList, "OCLintUtil".toList, "OCLintAbstractRule".toList]
  | .reporters => []
  | .driver => ["OCLintDriver".toList]

/-- Where the plug-ins of a part are. -/
def pluginDirs : OclintModule → List Str
  | .rules => ["rules".toList]
  | .reporters => ["reporters".toList]
  | _ => []

/-- A library of the project, by its name. -/
def OwnLibrary (lib : Str) : Prop := "OCLint".toList <+: lib

/-- The libraries have every source in `lib` once, the programs are as they should be, and nothing has the
name of another. -/
structure BuildsAll (m : OclintModule) (documentation : Bool) (targets : List BuildTarget) : Prop where
  exactly : ∃ libs, targets = libs ++ programs m documentation ∧ libs.map (·.name) = libraries m ∧
    (libs.flatMap (·.sources)).Perm ((ownSources m).filter fun f => "lib/".toList.isPrefixOf f)
  names : (targets.map (·.name)).Nodup

/-- Something that a part is linked with is built by the same part, or by one that it is built on and
written where it is looked for; `look` are those directories. -/
def Found (root : Str) (m : OclintModule) (own : List BuildTarget)
    (others : OclintModule → List BuildTarget) (look : List Str) (lib : Str) : Prop :=
  (∃ t ∈ own, t.name = lib) ∨
  ∃ m' ∈ needs m, ∃ t ∈ others m', t.name = lib ∧
    workDir root [] m' ++ "/".toList ++ t.place ∈ look.map (· ++ "/".toList)

end Oclint.Spec
