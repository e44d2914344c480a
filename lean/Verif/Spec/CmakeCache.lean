import Verif.Model.CmakeCache
import Verif.Spec.BuildScripts

/-!
# What a build should be made with
-/

namespace Oclint.Spec
open Oclint

/-- Where a part is, for the parts that are built on it. -/
def partPlaces (root : Str) : OclintModule → List (Str × Str)
  | .core => [("OCLINT_SOURCE_DIR".toList, root ++ "/oclint-core".toList),
      ("OCLINT_BUILD_DIR".toList, root ++ "/build/oclint-core".toList)]
  | .metrics => [("OCLINT_METRICS_SOURCE_DIR".toList, root ++ "/oclint-metrics".toList),
      ("OCLINT_METRICS_BUILD_DIR".toList, root ++ "/build/oclint-metrics".toList)]
  | _ => []

/-- What a call of `build` asks of CMake for a part. -/
def askedFor (root : Str) (a : BuildArgs) (m : OclintModule) : List (Str × Str) :=
  (if a.release then [("OCLINT_BUILD_TYPE".toList, "Release".toList)] else [])
  ++ (if a.docgen then [("DOC_GEN_BUILD".toList, "1".toList)] else [])
  ++ ("LLVM_ROOT".toList, a.llvmRoot) :: (needs m).flatMap (partPlaces root)

/-- What is remembered is remembered in a directory. -/
def InDirectories (sh : Shell) (caches : Str → CmakeCache) : Prop :=
  ∀ events d k, cachesAfter caches events d k ≠ none → sh.isDir events d = true

/-- The compiler is told `-DDOCGEN`, with which rules have what their documentation is made of. -/
def ForDocumentation (clang apple : Bool) (c : CmakeCache) : Prop :=
  "-DDOCGEN".toList ∈ (cxxFlags clang apple c).splitOn ' '

/-- The compiler optimizes. -/
def Optimized (clang apple : Bool) (c : CmakeCache) : Prop :=
  "-O3".toList ∈ (cxxFlags clang apple c).splitOn ' '

/-- A call of one of the scripts that call CMake: on some machine, in some directory, with options that
have no space in them. -/
inductive ScriptRun (root : Str) : List ScriptEvent → Prop where
  | build (sh : Shell) (here : Str) (a : BuildArgs) (h : ' ' ∉ a.llvmRoot) :
      ScriptRun root (buildScript sh root a ⟨here, []⟩).2.events
  | test (sh : Shell) (here : Str) (a : TestArgs) (h : ' ' ∉ a.llvmRoot) :
      ScriptRun root (testScript sh root a ⟨here, []⟩).2.events
  | dogFooding (sh : Shell) (here : Str) (a : DogArgs) (h : ' ' ∉ a.llvmRoot) :
      ScriptRun root (dogScript sh root a ⟨here, []⟩).2.events

/-- What CMake remembers after some calls. -/
inductive Remembered (root : Str) (before : Str → CmakeCache) : (Str → CmakeCache) → Prop where
  | start : Remembered root before before
  | call (caches : Str → CmakeCache) (events : List ScriptEvent) : Remembered root before caches →
      ScriptRun root events → Remembered root before (cachesAfter caches events)

end Oclint.Spec
