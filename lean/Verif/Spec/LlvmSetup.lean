import Verif.Spec.Bundle
import Verif.Model.LlvmSetup

/-!
# What setting up LLVM leaves behind
-/

namespace Oclint.Spec

/-- Where LLVM is installed. -/
def llvmDirectory (h : BundleHost) : Place := h.root ++ ["build".toList, "llvm-install".toList]

/-- A name in which a word occurs, in small or capital letters. -/
def Mentions (word name : Str) : Prop := ∃ a m b, name = a ++ m ++ b ∧ m.map Char.toLower = word

/-- The libraries of C++ among the names in `lib`. -/
def CppLibrary (name : Str) : Prop := "libc++".toList <+: name ∨ "libunwind".toList <+: name

/-- The directories in `include` of one platform of Apple. -/
def ApplePlatform (name : Str) : Prop := Mentions "apple".toList name ∨ Mentions "darwin".toList name

/-- The directories that have headers of C++. -/
def CppHeaders (root d : Place) : Prop :=
  d = root ++ ["include".toList, "c++".toList] ∨
    ∃ n, ApplePlatform n ∧ d = root ++ ["include".toList, n, "c++".toList]

/-- What is taken away on macOS. -/
def Removed (root p : Place) : Prop :=
  (∃ n, CppLibrary n ∧ p = root ++ ["lib".toList, n]) ∨ ∃ d, CppHeaders root d ∧ d <+: p

/-- The contents of the last member of a name. -/
def lastNamed (members : List Member) (n : Str) : Option Str :=
  (members.reverse.find? fun m => decide (m.1 = n)).map (·.2)

/-- The names of object files that a shell's `*.o` finds. -/
def ObjectFile (n : Str) : Prop := (∃ stem, n = stem ++ ".o".toList) ∧ ∀ rest, n ≠ '.' :: rest

/-- Native code, if there is a way to it. -/
def nativeCode (llc : Str → Option Str) (contents : Str) : Str := (llc contents).getD contents

/-- A library that is packed again: both programs succeed, and there was something to do. -/
def PackedAgain (tools : LibraryTools) (members : List Member) : Prop :=
  tools.extracts = true ∧ tools.repacks = true ∧
    ∃ n c, ObjectFile n ∧ lastNamed members n = some c ∧ tools.llc c ≠ none

/-- The platform in the name of a file of LLVM. -/
def machineName (darwin arm : Bool) : Str :=
  (if darwin then "macOS".toList else "Linux".toList) ++ (if arm then "-ARM64".toList else "-X64".toList)

/-- The address of LLVM for a machine. -/
def llvmFor (machine : Str) : Str :=
  "https://github.com/llvm/llvm-project/releases/download/llvmorg-21.1.8/LLVM-21.1.8-".toList ++ machine ++
    ".tar.xz".toList

/-- The places `llc` is looked for, best first. -/
def llcPlaces (darwin : Bool) (installed : Str) (inPath : Option Str) : List Str :=
  [installed] ++ inPath.toList ++ (if darwin then
    ["/opt/homebrew/opt/llvm@21/bin/llc".toList, "/opt/homebrew/opt/llvm/bin/llc".toList,
      "/usr/local/opt/llvm@21/bin/llc".toList, "/usr/local/opt/llvm/bin/llc".toList] else [])

end Oclint.Spec
