import Verif.Lemmas.BundleAgain
import Verif.Props.Install

/-!
# C109: a release is what was built
-/

namespace Oclint
open Spec

theorem released_root (h : BundleHost) (a : BundleArgs) (t : FileTree) : released h a t [] = some .dir := by
  unfold released ownDirectories
  exact if_pos List.mem_cons_self

theorem released_libraries (h : BundleHost) (a : BundleArgs) (t : FileTree) :
    released h a t ["lib".toList] = some .dir := by
  unfold released ownDirectories
  exact if_pos (List.mem_cons_of_mem _ List.mem_cons_self)

theorem bundle_unarchived {h : BundleHost} {a : BundleArgs} {t : FileTree} (hn : a.archive = false) :
    bundleScript h a t = assembleBundle h a t := by
  unfold bundleScript
  rw [hn]
  simp

/-- After a run that succeeds, the release has exactly what it is made of, whatever was there before, and
nothing else on the disk has changed. -/
theorem C109_bundle (h : BundleHost) (a : BundleArgs) (t t' : FileTree) (hs : SoundTree t)
    (ha : ApartFromRelease h a) (hn : a.archive = false) (hb : bundleScript h a t = some t') :
    (∀ p, t'.item (releaseDirectory h ++ p) = released h a t p) ∧
      (∀ p, ¬ releaseDirectory h <+: p → t'.item p = t.item p) ∧ t'.tarballs = t.tarballs := by
  rw [bundle_unarchived hn] at hb
  rcases steps_assemble_all hs ha with ⟨t1, h1, -, h2⟩ | ⟨h1, -⟩
  · rw [hb] at h1
    cases h1
    exact ⟨h2.inside, fun p hp => h2.outside hp, h2.tarballs⟩
  · rw [hb] at h1
    cases h1

/-- A run succeeds exactly if everything is there, and the name of the archive is free if there is to be
one. -/
theorem C109_ready (h : BundleHost) (a : BundleArgs) (t : FileTree) (hs : SoundTree t)
    (ha : ApartFromRelease h a) :
    (∃ t', bundleScript h a t = some t') ↔
      ReadyToBundle h a t ∧ (a.archive = true →
        t.item (archiveDirectory h a) = none ∨ t.item (archiveDirectory h a) = some .dir ∧
          ∀ p, archiveDirectory h a <+: p → p ≠ archiveDirectory h a → t.item p = none) := by
  unfold bundleScript
  rcases steps_assemble_all hs ha with ⟨t1, h1, h2, h3⟩ | ⟨h1, h2⟩
  · rw [h1, Option.bind_some]
    cases a.archive with
    | false => simp [h2]
    | true =>
      simp only [if_true, forall_const]
      have hsrc : t1.item (releaseDirectory h) = some .dir := by
        have := h3.inside []
        rw [List.append_nil] at this
        rw [this, released_root]
      have ho : ∀ p, archiveDirectory h a <+: p → t1.item p = t.item p := fun p hp =>
        h3.outside (apart_below (archive_apart h a) hp)
      have hm := move_iff t1 (releaseDirectory h) (archiveDirectory h a)
      rw [ho _ List.prefix_rfl] at hm
      unfold archiveBundle
      rw [releasePlace_eq, archivePlace_eq]
      constructor
      · rintro ⟨t', ht'⟩
        rw [Option.map_eq_some_iff] at ht'
        obtain ⟨t2, h4, -⟩ := ht'
        refine ⟨h2, ?_⟩
        rcases (hm.1 ⟨t2, h4⟩).2 with h5 | ⟨h5, h6⟩
        · exact Or.inl h5
        · refine Or.inr ⟨h5, fun p hp hne => ?_⟩
          rw [← ho p hp]
          exact h6 p hp hne
      · rintro ⟨-, h5⟩
        obtain ⟨t2, h6⟩ := hm.2 ⟨hsrc, by
          rcases h5 with h5 | ⟨h5, h6⟩
          · exact Or.inl h5
          · refine Or.inr ⟨h5, fun p hp hne => ?_⟩
            rw [ho p hp]
            exact h6 p hp hne⟩
        rw [h6]
        exact ⟨_, rfl⟩
  · rw [h1]
    simp [h2]

/-- With an archive, the release is moved to a directory with the version in its name, and the archive has
exactly the release under that name. -/
theorem C109_archive (h : BundleHost) (a : BundleArgs) (t t' : FileTree) (hs : SoundTree t)
    (ha : ApartFromRelease h a) (hn : a.archive = true) (hb : bundleScript h a t = some t') :
    (∀ p, t'.item (archiveDirectory h a ++ p) = released h a t p) ∧
      (∀ p, t'.item (releaseDirectory h ++ p) = none) ∧
      (∀ p, ¬ releaseDirectory h <+: p → ¬ archiveDirectory h a <+: p → t'.item p = t.item p) ∧
      ∃ packed, t'.tarballs =
          (h.root ++ ["build".toList, archivedAs h a ++ "-".toList ++ h.distEnv ++ ".tar.gz".toList], packed)
            :: t.tarballs ∧
        (∀ p, lookup packed (archivedAs h a :: p) = released h a t p) ∧
        ∀ p, ¬ [archivedAs h a] <+: p → lookup packed p = none := by
  unfold bundleScript at hb
  rcases steps_assemble_all hs ha with ⟨t1, h1, h2, h3⟩ | ⟨h1, -⟩
  · rw [h1, Option.bind_some, hn, if_pos rfl] at hb
    unfold archiveBundle at hb
    have hname : "oclint-".toList ++ fullVersion h a = archivedAs h a := by
      have := archivePlace_eq h a
      unfold buildPlace archiveDirectory at this
      have := List.append_cancel_left this
      simpa using this
    rw [releasePlace_eq, archivePlace_eq, hname, Option.map_eq_some_iff] at hb
    obtain ⟨t2, h4, rfl⟩ := hb
    obtain ⟨m1, m2⟩ := move_some h4
    have hin : ∀ p, t2.item (archiveDirectory h a ++ p) = released h a t p := by
      intro p
      rw [m2, if_pos (List.prefix_append _ _), List.drop_left, h3.inside]
    refine ⟨hin, ?_, ?_,
      ⟨relocated (archiveDirectory h a) [archivedAs h a] t2.entries, ?_, ?_, ?_⟩⟩
    · intro p
      change t2.item _ = _
      rw [m2, if_neg, if_pos (List.prefix_append _ _)]
      exact apart_below ⟨(archive_apart h a).2, (archive_apart h a).1⟩ (List.prefix_append _ _)
    · intro p hp hq
      change t2.item p = _
      rw [m2, if_neg hq, if_neg hp, h3.outside hp]
    · have e1 : "oclint-".toList ++ (fullVersion h a ++ "-".toList ++ h.distEnv) =
          archivedAs h a ++ "-".toList ++ h.distEnv := by
        rw [← List.append_assoc, ← List.append_assoc, hname]
      change _ :: t2.tarballs = _
      rw [m1, h3.tarballs]
      unfold buildPlace
      rw [e1]
    · intro p
      rw [lookup_relocated, if_pos (by rw [List.cons_prefix_cons]; exact ⟨rfl, List.nil_prefix⟩)]
      exact hin p
    · intro p hp
      rw [lookup_relocated, if_neg hp]
  · rw [h1] at hb
    cases hb

/-- A run after a run makes the same release: it does not matter what an older one left. -/
theorem C109_again (h : BundleHost) (a : BundleArgs) (t t' : FileTree) (hs : SoundTree t)
    (ha : ApartFromRelease h a) (hn : a.archive = false) (hb : bundleScript h a t = some t') :
    ∃ t'', bundleScript h a t' = some t'' ∧ ∀ p, t''.item p = t'.item p := by
  obtain ⟨hin, hout, -⟩ := C109_bundle h a t t' hs ha hn hb
  have hready := ((C109_ready h a t hs ha).1 ⟨t', hb⟩).1
  have hs' : SoundTree t' := by
    rw [bundle_unarchived hn] at hb
    exact sound_assemble hs hb
  have hsame := sameSources_of ha hout
  have hdir : t'.item (releaseDirectory h) = some .dir := by
    have := hin []
    rw [List.append_nil] at this
    rw [this, released_root]
  obtain ⟨t'', hb''⟩ := (C109_ready h a t' hs' ha).2
    ⟨ready_same hsame (Or.inr hdir) hready, by rw [hn]; nofun⟩
  obtain ⟨hin', hout', -⟩ := C109_bundle h a t' t'' hs' ha hn hb''
  refine ⟨t'', hb'', fun p => ?_⟩
  by_cases hp : releaseDirectory h <+: p
  · obtain ⟨y, rfl⟩ := hp
    rw [hin', hin, released_same hsame]
  · exact hout' p hp

/-- A version that was archived is not archived again: the second run fails rather than mix two
releases. -/
theorem C109_archive_again (h : BundleHost) (a : BundleArgs) (t t' : FileTree) (hs : SoundTree t)
    (ha : ApartFromRelease h a) (hn : a.archive = true) (hb : bundleScript h a t = some t') :
    bundleScript h a t' = none := by
  obtain ⟨hin, -, -, -⟩ := C109_archive h a t t' hs ha hn hb
  have hready := ((C109_ready h a t hs ha).1 ⟨t', hb⟩).1
  have hs' : SoundTree t' := by
    unfold bundleScript at hb
    obtain ⟨t1, h1, hb⟩ := Option.bind_eq_some_iff.1 hb
    have s1 := sound_assemble hs h1
    rw [hn, if_pos rfl] at hb
    unfold archiveBundle at hb
    rw [releasePlace_eq, archivePlace_eq, Option.map_eq_some_iff] at hb
    obtain ⟨t2, h2, rfl⟩ := hb
    have e : archiveDirectory h a = (h.root ++ ["build".toList]) ++ [archivedAs h a] := by
      unfold archiveDirectory
      simp
    have hsrc := ((move_iff t1 _ _).1 ⟨t2, h2⟩).1
    have happ := archive_apart h a
    rw [e] at h2 happ
    have := sound_move s1 h2 happ (by
      refine s1 (releaseDirectory h) _ ?_ ?_ (by rw [hsrc]; nofun)
      · unfold releaseDirectory
        rw [List.prefix_append_right_inj, List.cons_prefix_cons]
        exact ⟨rfl, List.nil_prefix⟩
      · unfold releaseDirectory
        simp)
    exact this
  cases hb' : bundleScript h a t' with
  | none => rfl
  | some t'' =>
    rcases ((C109_ready h a t' hs' ha).1 ⟨t'', hb'⟩).2 hn with h1 | ⟨-, h1⟩
    · have := hin []
      rw [List.append_nil, h1, released_root] at this
      cases this
    · have h2 := h1 (archiveDirectory h a ++ ["lib".toList]) (List.prefix_append _ _) (by simp)
      rw [hin, released_libraries] at h2
      cases h2

/-- A program started from a release finds the rules and the reporters that were built. -/
theorem C109_found (h : BundleHost) (a : BundleArgs) (t t' : FileTree) (hs : SoundTree t)
    (ha : ApartFromRelease h a) (hn : a.archive = false) (hdoc : a.docgen = false)
    (hb : bundleScript h a t = some t') (e : Env) (st : OptionState)
    (he : place e.binPath = releaseDirectory h ++ ["bin".toList]) (hst : st.argRulesPath = []) :
    (∃ d, rulesPath e st = [d] ∧ ∀ y, t'.item (place d ++ y) =
        t.item (h.root ++ ["build".toList, "oclint-rules".toList, "rules.dl".toList] ++ y)) ∧
      ∀ y, t'.item (place (reporterPath e) ++ y) =
        t.item (h.root ++ ["build".toList, "oclint-reporters".toList, "reporters.dl".toList] ++ y) := by
  obtain ⟨hin, -, -⟩ := C109_bundle h a t t' hs ha hn hb
  obtain ⟨p1, p2, -⟩ := C99_parts e st hst
  rw [he, List.dropLast_concat] at p1 p2
  have hrel : ∀ n src, (n = "rules".toList ∧
        src = h.root ++ ["build".toList, "oclint-rules".toList, "rules.dl".toList]) ∨
      (n = "reporters".toList ∧
        src = h.root ++ ["build".toList, "oclint-reporters".toList, "reporters.dl".toList]) → ∀ y,
      t'.item (releaseDirectory h ++ ["lib".toList, "oclint".toList, n] ++ y) = t.item (src ++ y) := by
    intro n src hns y
    rw [List.append_assoc, hin, ← assembled_eq]
    have hb' : ∀ z, ["lib".toList, "oclint".toList, n] ++ y ≠ "bin".toList :: z := by simp
    have hi' : ∀ z, ["lib".toList, "oclint".toList, n] ++ y ≠ "include".toList :: z := by simp
    rw [assembled_reporters h a t hb' hi', hdoc]
    simp only [Bool.false_eq_true, if_false]
    unfold withHeaders withReporters withRules
    rcases hns with ⟨rfl, rfl⟩ | ⟨rfl, rfl⟩
    · rw [graftAt_other _ _ _ (by
          rw [List.cons_append, List.cons_append]; exact not_prefix_second (by decide) _ _),
        graftAt_other _ _ _ (by
          rw [List.cons_append, List.cons_append, List.cons_append]
          exact not_prefix_third (by decide) _ _)]
      unfold graftAt
      rw [if_pos (List.prefix_append _ _), List.drop_left]
    · rw [graftAt_other _ _ _ (by
          rw [List.cons_append, List.cons_append]; exact not_prefix_second (by decide) _ _)]
      unfold graftAt
      rw [if_pos (List.prefix_append _ _), List.drop_left]
  constructor
  · cases hr : rulesPath e st with
    | nil => rw [hr] at p1; cases p1
    | cons d ds =>
      rw [hr, List.map_cons, List.cons.injEq, List.map_eq_nil_iff] at p1
      refine ⟨d, by rw [p1.2], fun y => ?_⟩
      rw [p1.1]
      exact hrel _ _ (Or.inl ⟨rfl, rfl⟩) y
  · intro y
    rw [p2]
    exact hrel _ _ (Or.inr ⟨rfl, rfl⟩) y

/-! ## Examples -/

/-- A small project that was built. -/
def builtProject : FileTree where
  entries :=
    [([], .dir), ([chars! "p"], .dir), ([chars! "p", chars! "LICENSE"], .file (chars! "BSD\n")),
      ([chars! "p", chars! "build"], .dir),
      ([chars! "p", chars! "build", chars! "oclint-driver"], .dir),
      ([chars! "p", chars! "build", chars! "oclint-driver", chars! "bin"], .dir),
      ([chars! "p", chars! "build", chars! "oclint-driver", chars! "bin", chars! "oclint-26.02"],
        .file (chars! "program")),
      ([chars! "p", chars! "build", chars! "oclint-rules"], .dir),
      ([chars! "p", chars! "build", chars! "oclint-rules", chars! "rules.dl"], .dir),
      ([chars! "p", chars! "build", chars! "oclint-rules", chars! "rules.dl", chars! "libGotoRule.so"],
        .file (chars! "goto")),
      ([chars! "p", chars! "build", chars! "oclint-release"], .dir),
      ([chars! "p", chars! "build", chars! "oclint-release", chars! "stale"], .file (chars! "old")),
      ([chars! "l"], .dir), ([chars! "l", chars! "LICENSE.TXT"], .file (chars! "Apache\n"))]

/-- Where it is. -/
def builtHost : BundleHost where
  root := [chars! "p"]
  commit := chars! "1a2b3c4"
  distEnv := chars! "x86_64-linux"
  darwin := false
  arm := false

/-- The project is a sound disk, and LLVM is apart from the release: the theorems say something about it. -/
example : SoundTree builtProject ∧ ApartFromRelease builtHost { llvmRoot := [chars! "l"] } := by
  have hall : ∀ e ∈ builtProject.entries, ∀ q ∈ e.1.inits, q ≠ e.1 → builtProject.item q = some .dir := by
    decide +kernel
  refine ⟨fun p q hq hne hp => ?_, ⟨?_, ?_, ?_⟩⟩
  · have : ∃ e ∈ builtProject.entries, e.1 = p := by
      by_contra hno
      refine hp ((lookup_none_iff _ _).2 fun e he hep => hno ⟨e, he, hep⟩)
    obtain ⟨e, he, rfl⟩ := this
    exact hall e he q ((List.mem_inits _ _).2 hq) hne
  all_goals
    constructor <;> decide +kernel

/-- What a run leaves at a place. -/
def bundledItem (a : BundleArgs) (p : Place) : Option (Option Item) :=
  (bundleScript builtHost a builtProject).map fun t => t.item p

example : bundledItem { docgen := true, llvmRoot := [chars! "l"] }
    [chars! "p", chars! "build", chars! "oclint-release", chars! "lib", chars! "oclint", chars! "rules",
      chars! "libGotoRule.so"] = some (some (.file (chars! "goto"))) := by decide +kernel

example : bundledItem { docgen := true, llvmRoot := [chars! "l"] }
    [chars! "p", chars! "build", chars! "oclint-release", chars! "LICENSE"]
      = some (some (.file (chars! "BSD\n\nApache\n"))) := by decide +kernel

example : bundledItem { docgen := true, llvmRoot := [chars! "l"] }
    [chars! "p", chars! "build", chars! "oclint-release", chars! "bin", chars! "oclint-26.02.dev.1a2b3c4"]
      = some (some (.link (chars! "oclint-26.02"))) := by decide +kernel

example : bundledItem { docgen := true, release := true, llvmRoot := [chars! "l"] }
    [chars! "p", chars! "build", chars! "oclint-release", chars! "bin", chars! "oclint-26.02.dev.1a2b3c4"]
      = some none := by decide +kernel

example : bundledItem { docgen := true, llvmRoot := [chars! "l"] }
    [chars! "p", chars! "build", chars! "oclint-release", chars! "stale"] = some none := by decide +kernel

example : bundledItem { docgen := true, release := true, archive := true, llvmRoot := [chars! "l"] }
    [chars! "p", chars! "build", chars! "oclint-26.02", chars! "bin", chars! "oclint-26.02"]
      = some (some (.file (chars! "program"))) := by decide +kernel

/-- The reporters were not built: no release. -/
example : bundledItem { llvmRoot := [chars! "l"] } [] = none := by decide +kernel

end Oclint
