import Verif.Model.Uploads
import Verif.Spec.Bundle

/-!
# What should be uploaded
-/

namespace Oclint.Spec
open Oclint

/-- The name of an archive of the project. -/
def ArchiveName (name : Str) : Prop := ∃ what, name = "oclint-".toList ++ what ++ ".tar.gz".toList

/-- Two machines are of the same sort: as far as letters are small, the same architecture and the same
system, in the same release. -/
def SameSort (u v : Uname) : Prop :=
  u.machine.map Char.toLower = v.machine.map Char.toLower ∧
  u.system.map Char.toLower = v.system.map Char.toLower ∧ u.release = v.release

/-- Machines as there are: no dashes in the names of architecture and system. -/
def NoDashes (u : Uname) : Prop := '-' ∉ u.machine ∧ '-' ∉ u.system

/-- The archive of a run of `bundle`, if it made one. -/
def newArchive (t t' : FileTree) : Option Place :=
  if t'.tarballs.length = t.tarballs.length + 1 then t'.tarballs.head?.map (·.1) else none

end Oclint.Spec
