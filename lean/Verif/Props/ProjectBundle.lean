import Verif.Props.ProjectLists
import Verif.Props.Bundle

/-!
# C122: what is built is what is bundled
-/

namespace Oclint
open Spec

/-- The programs that are built. -/
def programNames : List Str := [chars! "oclint-26.02", chars! "oclint-docgen"]

theorem dev_link {x c : Str} (hx : x ∈ programNames) : x ≠ "oclint-26.02.dev.".toList ++ c := by
  have key : ∀ y ∈ programNames, ¬ "oclint-26.02.dev.".toList <+: y := by decide +kernel
  rintro rfl
  exact key _ hx (List.prefix_append _ _)

theorem program_place (root x : Str) (hx : x ∈ programNames) :
    place (workDir root [] .driver ++ "/".toList ++ "bin/".toList ++ x) =
      place root ++ ["build".toList, "oclint-driver".toList, "bin".toList, x] := by
  have fn : ∀ y ∈ [chars! "build", chars! "oclint-driver", chars! "bin"] ++ programNames, FileName y := by
    intro y hy
    have key : ∀ y ∈ [chars! "build", chars! "oclint-driver", chars! "bin"] ++ programNames,
        y ≠ [] ∧ '/' ∉ y ∧ y ≠ ".".toList ∧ y ≠ "..".toList := by decide +kernel
    obtain ⟨h1, h2, h3, h4⟩ := key y hy
    constructor <;> assumption
  have e : workDir root [] .driver ++ "/".toList ++ "bin/".toList ++ x =
      (((root ++ '/' :: chars! "build") ++ '/' :: chars! "oclint-driver") ++ '/' :: chars! "bin") ++ '/' :: x := by
    unfold workDir
    simp only [List.append_assoc, List.cons_append]
    rfl
  rw [e, place_name _ _ (fn x (List.mem_append_right _ hx)), place_name _ _ (fn _ (by simp)),
    place_name _ _ (fn _ (by simp)), place_name _ _ (fn _ (by simp))]
  simp only [List.append_assoc]
  rfl

theorem released_link (h : BundleHost) (a : BundleArgs) (t : FileTree) {name : Str}
    (hn : name ∈ programLinks h a) :
    released h a t ["bin".toList, name] = some (.link "oclint-26.02".toList) := by
  have h1 : ["bin".toList, name] ∉ ownDirectories h a := by
    unfold ownDirectories
    cases withCppHeaders h a <;> simp
  have h2 : ["bin".toList, name] ≠ ["LICENSE".toList] := by simp
  unfold released
  rw [if_neg h1, if_neg h2, if_pos ⟨name, hn, rfl⟩]

theorem released_program (h : BundleHost) (a : BundleArgs) (t : FileTree) {x : Str} (hx : x ∈ programNames) :
    released h a t ["bin".toList, x] =
      t.item (h.root ++ ["build".toList, "oclint-driver".toList, "bin".toList, x]) := by
  have h1 : ["bin".toList, x] ∉ ownDirectories h a := by
    unfold ownDirectories
    cases withCppHeaders h a <;> simp
  have h2 : ["bin".toList, x] ≠ ["LICENSE".toList] := by simp
  have no : ∀ y ∈ programNames, y ≠ "oclint".toList ∧ y ≠ "oclint-json-compilation-database".toList ∧
      y ≠ "oclint-xcodebuild".toList := by decide +kernel
  obtain ⟨n1, n2, n3⟩ := no x hx
  have h3 : ¬ ∃ name ∈ programLinks h a, ["bin".toList, x] = ["bin".toList, name] := by
    rintro ⟨name, hn, e⟩
    have e' : x = name := (List.cons.inj (List.cons.inj e).2).1
    subst e'
    unfold programLinks at hn
    rcases List.mem_cons.1 hn with hn | hn
    · exact n1 hn
    · split at hn
      · cases hn
      · exact dev_link hx (List.mem_singleton.1 hn)
  have h4 : ((helpers h a).findSome? fun name =>
      if ["bin".toList, x] = ["bin".toList, name] then helperText h t name else none) = none := by
    rw [List.findSome?_eq_none_iff]
    intro name hn
    rw [if_neg]
    intro e
    have e' : x = name := (List.cons.inj (List.cons.inj e).2).1
    subst e'
    unfold helpers at hn
    split at hn
    · cases hn
    · rcases List.mem_cons.1 hn with hn | hn
      · exact n2 hn
      · split at hn
        · exact n3 (List.mem_singleton.1 hn)
        · cases hn
  have h5 : (copied h a).find? (fun c => decide (c.1 <+: ["bin".toList, x])) =
      some (["bin".toList], h.root ++ ["build".toList, "oclint-driver".toList, "bin".toList]) := by
    unfold copied
    rw [List.cons_append, List.cons_append]
    exact List.find?_cons_of_pos (decide_eq_true (prefix_head.2 ⟨rfl, List.nil_prefix⟩))
  unfold released
  rw [if_neg h1, if_neg h2, if_neg h3, h4, h5]
  simp only [Option.bind_some]
  show t.item (h.root ++ ["build".toList, "oclint-driver".toList, "bin".toList] ++ [x]) = _
  rw [List.append_assoc]
  rfl

/-- **C122.** A release has every program that CMake builds, taken from where it is written; and the names
under which users start the program lead to one that is built. -/
theorem C122_bundled (path : Str) (h : BundleHost) (hp : place path = h.root) (a : BundleArgs)
    (t t' : FileTree) (hs : SoundTree t) (ha : ApartFromRelease h a) (hn : a.archive = false)
    (hb : bundleScript h a t = some t') (depth : Nat) (hd : 3 ≤ depth) (d : Disk)
    (hrep : AsInRepository d (sourceDir path .driver) .driver) (cache : CmakeCache) :
    ∃ r, configureProject depth d (sourceDir path .driver) cache = some r ∧
      (∀ x ∈ r.targets, x.name ∉ libraries .driver →
        t'.item (releaseDirectory h ++ ["bin".toList, x.name]) =
          t.item (place (workDir path [] .driver ++ "/".toList ++ x.place ++ x.name))) ∧
      ∀ name ∈ programLinks h a, ∃ x ∈ r.targets,
        t'.item (releaseDirectory h ++ ["bin".toList, name]) = some (.link x.name) := by
  obtain ⟨hin, -, -⟩ := C109_bundle h a t t' hs ha hn hb
  obtain ⟨r, e, ⟨⟨libs, he, hl, -⟩, -⟩, -⟩ := C122_built depth hd d _ .driver hrep cache
  generalize cmakeTrue (cache "DOC_GEN_BUILD".toList) = b at he
  have hprog : ∀ b, ∀ x ∈ programs .driver b, x.name ∈ programNames ∧ x.place = "bin/".toList := by
    decide +kernel
  refine ⟨r, e, fun x hx hnl => ?_, fun name hname => ?_⟩
  · rw [he] at hx
    rcases List.mem_append.1 hx with hx | hx
    · exact absurd (hl ▸ List.mem_map_of_mem hx) hnl
    · obtain ⟨h1, h2⟩ := hprog b x hx
      rw [hin, h2, program_place path _ h1, hp]
      exact released_program h a t h1
  · refine ⟨⟨"oclint-26.02".toList, "bin/".toList, ["main.cpp".toList, "reporters_dlfcn_port.cpp".toList,
      "rules_dlfcn_port.cpp".toList]⟩, ?_, ?_⟩
    · rw [he]
      exact List.mem_append_right _ List.mem_cons_self
    · rw [hin]
      exact released_link h a t hname

/-- The small project of C109, on a disk with the driver of the repository. -/
example : place (chars! "/p") = builtHost.root ∧
    AsInRepository (partDisk (sourceDir (chars! "/p") .driver) .driver) (sourceDir (chars! "/p") .driver)
      .driver := by
  unfold AsInRepository
  decide +kernel

end Oclint
