import Verif.Model.BuildScripts

/-!
# What CMake remembers

Models what CMake keeps in `CMakeCache.txt` of the options that the scripts `build`, `test` and
`dogFooding` give it, and what `oclint-core/cmake/OCLintConfig.cmake` makes of them: an option that is
given with `-D` stays until the directory is removed.

Simplifications: the shell takes a command apart at spaces; an option is `-D` and one word with a `=`,
which is how the scripts write it; the generator (`-G`) is not remembered; options are remembered also if
CMake fails later on.  `CMAKE_CXX_FLAGS` of the user and `CMAKE_CXX_LINKER_FLAGS` are empty.
-/

namespace Oclint

/-- The options that CMake remembers in a directory. -/
abbrev CmakeCache := Str → Option Str

/-- `key=value`, taken apart at the first `=`. -/
def cmakeDefinition (w : Str) : List (Str × Str) :=
  if '=' ∈ w then [(w.takeWhile fun c => decide (c ≠ '='), (w.dropWhile fun c => decide (c ≠ '=')).drop 1)]
  else []

/-- The options among the words of a call of CMake. -/
def cmakeDefinitions : List Str → List (Str × Str)
  | [] => []
  | [_] => []
  | w :: v :: ws =>
    if w = chars! "-D" then cmakeDefinition v ++ cmakeDefinitions ws
    else if w = chars! "-G" then cmakeDefinitions ws
    else cmakeDefinitions (v :: ws)

/-- An option is remembered, instead of what was remembered of this name. -/
def CmakeCache.put (c : CmakeCache) (kv : Str × Str) : CmakeCache :=
  fun k => if k = kv.1 then some kv.2 else c k

/-- What is remembered in a directory after a command was run there. -/
def CmakeCache.run (c : CmakeCache) (command : Str) : CmakeCache :=
  if (chars! "cmake ").isPrefixOf command then
    (cmakeDefinitions (command.splitOn ' ')).foldl CmakeCache.put c
  else c

/-- One event: a command in a directory, or a directory that is removed with everything below it
(`path.py:82-84`). -/
def cacheStep (caches : Str → CmakeCache) : ScriptEvent → Str → CmakeCache
  | .ran cwd command _ => fun d => if d = cwd then (caches d).run command else caches d
  | .did (.remove dir) => fun d =>
    if d = dir ∨ (dir ++ ['/']).isPrefixOf d = true then fun _ => none else caches d
  | _ => caches

/-- What is remembered after everything a script did. -/
def cachesAfter (caches : Str → CmakeCache) (events : List ScriptEvent) : Str → CmakeCache :=
  events.foldl cacheStep caches

/-- `IF(name)` in CMake: the variable has a value that is none of those that mean no. -/
def cmakeTrue : Option Str → Bool
  | none => false
  | some v => !([[], chars! "0", chars! "OFF", chars! "NO", chars! "FALSE", chars! "N", chars! "IGNORE",
      chars! "NOTFOUND"].contains (v.map Char.toUpper) ||
      (chars! "-NOTFOUND").isSuffixOf (v.map Char.toUpper))

/-- `OCLintConfig.cmake:18-36` and `123-125`: the options of the compiler, `CMAKE_CXX_FLAGS`; `clang` and
`apple` say which compiler and which system it is. -/
def cxxFlags (clang apple : Bool) (c : CmakeCache) : Str :=
  let f0 := if clang then chars! "-fcolor-diagnostics" else []
  let f1 := chars! "-std=c++17  -fno-rtti -fPIC " ++ f0
  let f2 := if apple then f1 ++ chars! " -fvisibility-inlines-hidden" else f1
  let f3 := if c (chars! "OCLINT_BUILD_TYPE") = some (chars! "Release") then chars! "-O3 -DNDEBUG " ++ f2
    else chars! "-O0 -g " ++ f2
  if cmakeTrue (c (chars! "DOC_GEN_BUILD")) then chars! "-DDOCGEN " ++ f3 else f3

end Oclint
