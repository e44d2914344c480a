import Verif.Lemmas.LlvmSetup
import Verif.Lemmas.LlvmLibraries
import Verif.Props.Bundle

/-!
# C110: setting up LLVM
-/

namespace Oclint

open Spec

/-! ## What is downloaded -/

/-- LLVM is downloaded for the machine, except that a Mac gets the one for ARM. -/
theorem C110_address (darwin arm : Bool) : llvmUrl darwin arm = llvmFor (machineName darwin (arm || darwin)) := by
  cases darwin <;> cases arm <;> decide +kernel

/-- Anywhere but on a Mac with an Intel processor, what is downloaded is for the machine. -/
theorem C110_address_partial (darwin arm : Bool) (h : (darwin && !arm) = false) :
    llvmUrl darwin arm = llvmFor (machineName darwin arm) := by
  rw [C110_address]
  cases darwin <;> cases arm <;> first | rfl | cases h

/-- A Mac with an Intel processor gets LLVM for another processor. -/
theorem C110_address_witness : llvmUrl true false = llvmFor (machineName true true) ∧
    llvmUrl true false ≠ llvmFor (machineName true false) := by
  constructor <;> decide +kernel

/-! ## Finding llc -/

/-- `llc` is the first that exists of the one installed, the one in the path, and on macOS those of
Homebrew. -/
theorem C110_llc (existsAt : Str → Bool) (darwin : Bool) (installed : Str) (inPath : Option Str)
    (hp : ∀ p, inPath = some p → existsAt p = true) :
    findLlc existsAt darwin installed inPath = (llcPlaces darwin installed inPath).find? existsAt := by
  unfold findLlc llcPlaces
  rw [List.singleton_append, List.cons_append, List.find?_cons]
  cases h : existsAt installed with
  | true => rfl
  | false =>
    rw [if_neg (by simp)]
    cases inPath with
    | some p =>
      rw [Option.toList_some, List.singleton_append, List.find?_cons, hp p rfl]
    | none => cases darwin <;> rfl

/-! ## Libraries -/

/-- A library that is packed again has, for each name of an object file, the last member of that name, in
native code if possible, and nothing else; other libraries stay as they are. -/
theorem C110_library (tools : LibraryTools) (ho : ∀ l, (tools.order l).Perm l) (ms : List Member) :
    (PackedAgain tools ms →
      ((convertLibrary tools ms).map (·.1)).Nodup ∧
      ∀ n c, (n, c) ∈ convertLibrary tools ms ↔
        ObjectFile n ∧ ∃ c0, lastNamed ms n = some c0 ∧ c = nativeCode tools.llc c0) ∧
    (¬ PackedAgain tools ms → convertLibrary tools ms = ms) := by
  rcases convert_eq tools ho ms with ⟨h1, h2⟩ | ⟨h1, h2⟩
  · refine ⟨fun _ => ⟨?_, fun n c => ?_⟩, fun h => absurd h1 h⟩
    · rw [h2, List.map_map]
      exact objectFiles_nodup tools ho ms
    · rw [h2, List.mem_map]
      constructor
      · rintro ⟨⟨m, c0⟩, hm, he⟩
        obtain ⟨rfl, rfl⟩ := Prod.mk.inj he
        obtain ⟨h3, h4⟩ := (mem_objectFiles tools ho ms m c0).1 hm
        exact ⟨h3, c0, h4, rfl⟩
      · rintro ⟨h3, c0, h4, rfl⟩
        exact ⟨(n, c0), (mem_objectFiles tools ho ms n c0).2 ⟨h3, h4⟩, rfl⟩
  · exact ⟨fun h => absurd h h1, fun _ => h2⟩

/-- If the members of a library are object files of different names, no member is lost and none is changed
but into native code, whatever the programs do; if they do their work, every member that can be is in
native code. -/
theorem C110_library_partial (tools : LibraryTools) (ho : ∀ l, (tools.order l).Perm l) (ms : List Member)
    (hn : (ms.map (·.1)).Nodup) (hall : ∀ m ∈ ms, ObjectFile m.1) :
    (tools.extracts = true → tools.repacks = true →
      (convertLibrary tools ms).Perm (ms.map fun m => (m.1, nativeCode tools.llc m.2))) ∧
    (tools.extracts = false ∨ tools.repacks = false → convertLibrary tools ms = ms) := by
  rcases convert_eq tools ho ms with ⟨h1, h2⟩ | ⟨h1, h2⟩
  · refine ⟨fun _ _ => ?_, fun h => ?_⟩
    · rw [h2]
      exact (objectFiles_of_nodup tools ho ms hn hall).map _
    · rcases h with h | h
      · rw [h1.1] at h; cases h
      · rw [h1.2.1] at h; cases h
  · refine ⟨fun he hr => ?_, fun _ => h2⟩
    rw [h2]
    have : (ms.map fun m => (m.1, nativeCode tools.llc m.2)) = ms := by
      refine (List.map_congr_left fun m hm => ?_).trans (List.map_id ms)
      have hno : tools.llc m.2 = none := by
        by_contra hne
        exact h1 ⟨he, hr, m.1, m.2, hall m hm, lastNamed_of_mem ms hn hm, hne⟩
      show (m.1, nativeCode tools.llc m.2) = m
      unfold nativeCode
      rw [hno]
      rfl
    rw [this]

/-- Of two members of the same name one is lost, whatever is in it, as soon as the other one is converted. -/
theorem C110_library_witness (tools : LibraryTools) (ho : ∀ l, (tools.order l).Perm l)
    (he : tools.extracts = true) (hr : tools.repacks = true) (n first second native : Str)
    (hn : ObjectFile n) (hc : tools.llc second = some native) :
    convertLibrary tools [(n, first), (n, second)] = [(n, native)] := by
  have hex : extractMembers [(n, first), (n, second)] = [(n, second)] := by
    unfold extractMembers
    rw [List.foldl_cons, List.foldl_cons, List.foldl_nil, putMember, putMember, if_pos rfl]
  rcases convert_eq tools ho [(n, first), (n, second)] with ⟨-, h2⟩ | ⟨h1, -⟩
  · rw [h2]
    unfold objectFiles
    rw [hex, List.filter_cons, if_pos ((objectName_iff _).2 hn), List.filter_nil,
      List.perm_singleton.1 (ho _), List.map_singleton]
    unfold nativeCode
    rw [hc]
    rfl
  · refine absurd ⟨he, hr, n, second, hn, ?_, ?_⟩ h1
    · rw [← mem_extract, hex]
      exact List.mem_singleton.2 rfl
    · rw [hc]; simp

/-! ## What is taken away -/

/-- On macOS exactly the libraries and headers of C++ are taken away; elsewhere nothing is. -/
theorem C110_removed (h : BundleHost) (t t' : FileTree) (hs : SoundTree t) (ht : trimLlvm h t = some t') :
    t'.tarballs = t.tarballs ∧
      ∀ p, (h.darwin = true ∧ Removed (llvmDirectory h) p → t'.item p = none) ∧
        (¬ (h.darwin = true ∧ Removed (llvmDirectory h) p) → t'.item p = t.item p) := by
  by_cases hd : h.darwin = true
  · rcases cuts_trim h t hs hd with ⟨t1, h1, -, h2⟩ | ⟨h1, -⟩
    · rw [ht] at h1
      cases h1
      exact ⟨h2.tarballs, fun p => ⟨fun hp => h2.gone p hp.2, fun hp => h2.kept p fun h' => hp ⟨hd, h'⟩⟩⟩
    · rw [ht] at h1
      cases h1
  · unfold trimLlvm at ht
    rw [if_neg hd] at ht
    cases ht
    exact ⟨rfl, fun p => ⟨fun hp => absurd hp.1 hd, fun _ => rfl⟩⟩

/-- Taking them away fails only on macOS, and there only if a directory is named like a library, there are
no headers at all, or what is named like a directory of headers is none. -/
theorem C110_removable (h : BundleHost) (t : FileTree) (hs : SoundTree t) :
    (∃ t', trimLlvm h t = some t') ↔ (h.darwin = true →
      (∀ n, CppLibrary n → t.item (llvmDirectory h ++ ["lib".toList, n]) ≠ some .dir) ∧
        t.item (llvmDirectory h ++ ["include".toList]) = some .dir ∧
        ∀ d, CppHeaders (llvmDirectory h) d → t.item d = none ∨ t.item d = some .dir) := by
  by_cases hd : h.darwin = true
  · rcases cuts_trim h t hs hd with ⟨t1, h1, h2, -⟩ | ⟨h1, h2⟩
    · exact ⟨fun _ _ => h2, fun _ => ⟨t1, h1⟩⟩
    · rw [h1]
      exact ⟨fun ⟨_, h'⟩ => (nomatch h'), fun h' => absurd (h' hd) h2⟩
  · unfold trimLlvm
    rw [if_neg hd]
    exact ⟨fun _ h' => absurd h' hd, fun _ => ⟨t, rfl⟩⟩

/-! ## The script -/

theorem mkdirP_items {t t' : FileTree} {d : Place} (h : t.mkdirP d = some t') :
    t'.item d = some .dir ∧ ∀ p, ¬ p <+: d → t'.item p = t.item p := by
  unfold FileTree.mkdirP at h
  split at h
  · rename_i hd
    cases h
    exact ⟨(isDir_iff _ _).1 hd, fun _ _ => rfl⟩
  · have hm := makedirs_some h
    have hn : t.item d = none := by
      by_contra hne
      rw [makedirs_taken hne] at h
      cases h
    refine ⟨?_, fun p hp => ?_⟩
    · rw [hm, if_pos ⟨List.prefix_refl _, hn⟩]
    · rw [hm, if_neg fun h' => hp h'.1]

theorem rmF_gone {t : FileTree} (hs : SoundTree t) {d : Place}
    (hd : t.item d = none ∨ t.item d = some .dir) {p : Place} (hp : d <+: p) : (t.rmF d).item p = none := by
  rw [item_rmF]
  rcases hd with hd | hd
  · rw [if_neg fun h' => by rw [hd] at h'; exact nomatch h'.1]
    by_contra hne
    by_cases he : d = p
    · exact hne (he ▸ hd)
    · rw [hs p d hp he hne] at hd
      cases hd
  · rw [if_pos ⟨hd, hp⟩]

/-- A run that succeeds: with `-clean` the directories are emptied; LLVM is downloaded into one directory and
unpacked into the other, which are there by then; the libraries are converted unless that is to be skipped;
and at last the library of C++ is taken away. -/
theorem C110_script (h : BundleHost) (s : LlvmSteps) (t t' : FileTree) (hr : clangScript h s t = some t') :
    ∃ u t1 t2 t3 t4 : FileTree,
      (∀ p, ¬ (s.clean = true ∧ (h.root ++ ["build".toList, "llvm".toList] <+: p ∨ llvmDirectory h <+: p)) →
        u.item p = t.item p) ∧
      (s.clean = true → SoundTree t →
        (∀ d ∈ [h.root ++ ["build".toList, "llvm".toList], llvmDirectory h],
          t.item d = none ∨ t.item d = some .dir) →
        ∀ p, h.root ++ ["build".toList, "llvm".toList] <+: p ∨ llvmDirectory h <+: p → u.item p = none) ∧
      t1.item (h.root ++ ["build".toList, "llvm".toList]) = some .dir ∧
      (∀ p, ¬ p <+: h.root ++ ["build".toList, "llvm".toList] → t1.item p = u.item p) ∧
      s.download (llvmFor (machineName h.darwin (h.arm || h.darwin))) t1 = some t2 ∧
      t3.item (llvmDirectory h) = some .dir ∧ (∀ p, ¬ p <+: llvmDirectory h → t3.item p = t2.item p) ∧
      s.unpack t3 = some t4 ∧ trimLlvm h (if s.skipConvert then t4 else s.convert t4) = some t' := by
  unfold clangScript at hr
  obtain ⟨t5, hr, h6⟩ := Option.bind_eq_some_iff.1 hr
  obtain ⟨t4, hr4, h5⟩ := Option.map_eq_some_iff.1 hr
  subst h5
  obtain ⟨t3, hr3, h4⟩ := Option.bind_eq_some_iff.1 hr4
  obtain ⟨t2, hr2, h3⟩ := Option.bind_eq_some_iff.1 hr3
  obtain ⟨t1, h1, h2⟩ := Option.bind_eq_some_iff.1 hr2
  rw [C110_address] at h2
  obtain ⟨a1, a2⟩ := mkdirP_items h1
  obtain ⟨b1, b2⟩ := mkdirP_items h3
  refine ⟨_, t1, t2, t3, t4, ?_, ?_, a1, a2, h2, b1, b2, h4, h6⟩
  · intro p hp
    by_cases hc : s.clean = true
    · rw [if_pos hc, item_rmF, if_neg fun h' => hp ⟨hc, Or.inr h'.2⟩, item_rmF,
        if_neg fun h' => hp ⟨hc, Or.inl h'.2⟩]
    · rw [if_neg hc]
  · intro hc hs hd p hp
    rw [if_pos hc]
    have hs1 := sound_rmF hs (buildPlace h "llvm".toList)
    have hgone : ∀ q, buildPlace h "llvm".toList <+: q → (t.rmF (buildPlace h "llvm".toList)).item q = none :=
      fun q hq => rmF_gone hs (hd _ List.mem_cons_self) hq
    by_cases hi : installPlace h <+: p
    · refine rmF_gone hs1 ?_ hi
      rw [item_rmF]
      split
      · exact Or.inl rfl
      · exact hd _ (List.mem_cons_of_mem _ List.mem_cons_self)
    · rw [item_rmF, if_neg fun h' => hi h'.2]
      exact hgone p (hp.resolve_right hi)

/-! ## What a release needs -/

theorem llvm_apart (h : BundleHost) (a : BundleArgs) (ha : a.llvmRoot = llvmDirectory h) :
    ApartFromRelease h a := by
  have hne : "llvm-install".toList ≠ "oclint-release".toList := by decide
  have hroot : ∀ y, llvmDirectory h ++ y = h.root ++ ("build".toList :: "llvm-install".toList :: y) := by
    intro y
    unfold llvmDirectory
    rw [List.append_assoc]
    rfl
  refine ⟨?_, ?_, ?_⟩
  all_goals
    rw [ha, hroot]
    exact not_release_build _ _ rfl hne

theorem removed_inside {h : BundleHost} {p : Place} (hp : Removed (llvmDirectory h) p) :
    h.root ++ ["build".toList, "llvm-install".toList] <+: p := by
  rcases hp with ⟨n, -, rfl⟩ | ⟨d, rfl | ⟨n, -, rfl⟩, hd⟩
  · exact List.prefix_append _ _
  · exact (List.prefix_append _ _).trans hd
  · exact (List.prefix_append _ _).trans hd

theorem kept_clang {root y : Place} : ¬ Removed root (root ++ ["lib".toList, "clang".toList] ++ y) := by
  have h1 : ¬ "libc++".toList <+: "clang".toList := by decide
  have h2 : ¬ "libunwind".toList <+: "clang".toList := by decide
  have h3 : "include".toList ≠ "lib".toList := by decide
  rintro (⟨n, hn, he⟩ | ⟨d, rfl | ⟨n, -, rfl⟩, hd⟩)
  · rw [List.append_assoc, List.append_cancel_left_eq, List.cons_append, List.cons.injEq, List.cons_append,
      List.cons.injEq] at he
    rw [← he.2.1] at hn
    exact hn.elim h1 h2
  · rw [List.append_assoc, List.prefix_append_right_inj, List.cons_append, List.cons_prefix_cons] at hd
    exact h3 hd.1
  · rw [List.append_assoc, List.prefix_append_right_inj, List.cons_append, List.cons_prefix_cons] at hd
    exact h3 hd.1

theorem kept_license {root : Place} : ¬ Removed root (root ++ ["LICENSE.TXT".toList]) := by
  rintro (⟨n, -, he⟩ | ⟨d, rfl | ⟨n, -, rfl⟩, hd⟩)
  · have := congrArg List.length he
    simp at this
  · have := hd.length_le
    simp at this
  · have := hd.length_le
    simp at this

theorem kept_project {h : BundleHost} {n : Str} (hn : n ≠ "build".toList) (y : Place) :
    ¬ Removed (llvmDirectory h) (h.root ++ n :: y) := by
  intro hr
  have := removed_inside hr
  rw [List.prefix_append_right_inj, List.cons_prefix_cons] at this
  exact hn this.1.symm

theorem kept_build {h : BundleHost} {n : Str} (hn : n ≠ "llvm-install".toList) (y : Place) :
    ¬ Removed (llvmDirectory h) (h.root ++ "build".toList :: n :: y) := by
  intro hr
  have := removed_inside hr
  rw [List.prefix_append_right_inj, List.cons_prefix_cons, List.cons_prefix_cons] at this
  exact hn this.2.1.symm

/-- Anywhere but on a Mac with an Intel processor, taking away the library of C++ takes nothing away that a
release needs or has in it. -/
theorem C110_release_partial (h : BundleHost) (a : BundleArgs) (t t' : FileTree) (hs : SoundTree t)
    (ha : a.llvmRoot = llvmDirectory h) (hc : withCppHeaders h a = false) (ht : trimLlvm h t = some t') :
    (ReadyToBundle h a t' ↔ ReadyToBundle h a t) ∧ ∀ p, released h a t' p = released h a t p := by
  have hi : ∀ p, ¬ Removed (llvmDirectory h) p → t'.item p = t.item p :=
    fun p hp => ((C110_removed h t t' hs ht).2 p).2 fun h' => hp h'.2
  have hsame : SameSources h a t t' := by
    refine ⟨hi _ (kept_project (by decide) []), ?_, ?_, ?_⟩
    · unfold llvmLicenseItem
      rw [ha, hi _ kept_license, hi _ (kept_project (n := "llvm".toList) (by decide) ["LICENSE.TXT".toList])]
    · intro c hcm y
      unfold copied at hcm
      rw [hc, if_neg (c := false = true) (by simp), List.append_nil, List.mem_append] at hcm
      rcases hcm with hcm | hcm
      · rcases List.mem_cons.1 hcm with rfl | hcm
        · refine hi _ ?_
          rw [List.append_assoc]
          exact kept_build (by decide) _
        · cases List.mem_singleton.1 hcm
          refine hi _ ?_
          rw [List.append_assoc]
          exact kept_build (by decide) _
      · split at hcm
        · cases hcm
        · rcases List.mem_cons.1 hcm with rfl | hcm
          · refine hi _ ?_
            rw [List.append_assoc]
            exact kept_build (by decide) _
          · cases List.mem_singleton.1 hcm
            refine hi _ ?_
            rw [ha]
            exact kept_clang
    · intro name hn
      unfold helperText
      rw [hi _ (kept_project (helpers_not_build h a hn) [name])]
  have hback : SameSources h a t' t := ⟨hsame.license.symm, hsame.llvmLicense.symm,
    fun c hc y => (hsame.copied c hc y).symm, fun n hn => (hsame.helpers n hn).symm⟩
  have hrel : t'.item (releaseDirectory h) = t.item (releaseDirectory h) :=
    hi _ (kept_build (by decide) [])
  exact ⟨⟨fun hr => ready_same hback (hrel ▸ hr.free) hr, fun hr => ready_same hsame (hrel.symm ▸ hr.free) hr⟩,
    released_same hsame⟩

theorem inTurn_none {op : Str → FileTree → Option FileTree} {p : Place}
    (hop : ∀ n t t', op n t = some t' → t.item p = none → t'.item p = none) :
    ∀ (ns : List Str) (t t' : FileTree), inTurn op ns t = some t' → t.item p = none → t'.item p = none := by
  intro ns
  induction ns with
  | nil => intro t t' h hp; cases h; exact hp
  | cons n ns ih =>
    intro t t' h hp
    obtain ⟨t1, h1, h2⟩ := Option.bind_eq_some_iff.1 h
    exact ih t1 t' h2 (hop n t t1 h1 hp)

theorem rmtreeIfThere_none {d p : Place} {t t' : FileTree} (h : rmtreeIfThere d t = some t')
    (hp : t.item p = none) : t'.item p = none := by
  unfold rmtreeIfThere at h
  split at h
  · cases h; exact hp
  · rcases cuts_rmtree t d with ⟨t1, h1, -, h2⟩ | ⟨h1, -⟩
    · rw [h] at h1
      cases h1
      exact h2.still_none hp
    · rw [h] at h1
      cases h1

/-- After a run on a Mac the headers of C++ are not there, whatever was downloaded. -/
theorem C110_no_headers (h : BundleHost) (s : LlvmSteps) (t t' : FileTree) (hd : h.darwin = true)
    (hr : clangScript h s t = some t') : t'.item (llvmDirectory h ++ ["include".toList, "c++".toList]) = none := by
  obtain ⟨u, t1, t2, t3, t4, -, -, -, -, -, -, -, -, ht⟩ := C110_script h s t t' hr
  unfold trimLlvm at ht
  rw [if_pos hd, hd] at ht
  obtain ⟨t5, -, ht⟩ := Option.bind_eq_some_iff.1 ht
  unfold removeLibcxxHeaders at ht
  rw [if_pos rfl] at ht
  obtain ⟨t6, h6, ht⟩ := Option.bind_eq_some_iff.1 ht
  have hgone : t6.item (llvmDirectory h ++ ["include".toList, "c++".toList]) = none := by
    unfold rmtreeIfThere at h6
    split at h6
    · rename_i hn
      cases h6
      exact hn
    · rcases cuts_rmtree t5 (installPlace h ++ ["include".toList, "c++".toList]) with
        ⟨t1, h1, -, h2⟩ | ⟨h1, -⟩
      · rw [h6] at h1
        cases h1
        exact h2.gone _ (List.prefix_refl _)
      · rw [h6] at h1
        cases h1
  split at ht
  · exact inTurn_none (fun n t t' hop hp => rmtreeIfThere_none hop hp) _ _ _ ht hgone
  · cases ht

/-- On a Mac with an Intel processor no release can be made with the LLVM that was set up, whatever else was
built in the meantime: the headers of C++ that a release should have were taken away. -/
theorem C110_release_witness (h : BundleHost) (a : BundleArgs) (s : LlvmSteps) (t t' later : FileTree)
    (hc : withCppHeaders h a = true) (ha : a.llvmRoot = llvmDirectory h) (hr : clangScript h s t = some t')
    (hs : SoundTree later) (hl : ∀ p, llvmDirectory h <+: p → later.item p = t'.item p) :
    bundleScript h a later = none := by
  have hd : h.darwin = true := by
    unfold withCppHeaders at hc
    rw [Bool.and_eq_true, Bool.and_eq_true] at hc
    exact hc.1.2
  have hno := C110_no_headers h s t t' hd hr
  rw [← hl _ (List.prefix_append _ _)] at hno
  by_contra hne
  have hsome : ∃ b, bundleScript h a later = some b := by
    cases hb : bundleScript h a later with
    | none => exact absurd hb hne
    | some b => exact ⟨b, rfl⟩
  have := ((C109_ready h a later hs (llvm_apart h a ha)).1 hsome).1.built
    (["include".toList, "c++".toList], a.llvmRoot ++ ["include".toList, "c++".toList]) (by
      unfold copied
      rw [hc, if_pos (c := true = true) rfl]
      exact List.mem_append_right _ (List.mem_singleton.2 rfl))
  rw [ha, hno] at this
  cases this

/-! ## Examples -/

/-- A small LLVM that was unpacked. -/
def unpackedLlvm : FileTree where
  entries :=
    [([], .dir), ([chars! "p"], .dir), ([chars! "p", chars! "build"], .dir),
      ([chars! "p", chars! "build", chars! "llvm-install"], .dir),
      ([chars! "p", chars! "build", chars! "llvm-install", chars! "lib"], .dir),
      ([chars! "p", chars! "build", chars! "llvm-install", chars! "lib", chars! "libc++.1.dylib"],
        .file (chars! "c++")),
      ([chars! "p", chars! "build", chars! "llvm-install", chars! "lib", chars! "libclang.dylib"],
        .file (chars! "clang")),
      ([chars! "p", chars! "build", chars! "llvm-install", chars! "include"], .dir),
      ([chars! "p", chars! "build", chars! "llvm-install", chars! "include", chars! "c++"], .dir),
      ([chars! "p", chars! "build", chars! "llvm-install", chars! "include", chars! "c++", chars! "v1"],
        .file (chars! "vector")),
      ([chars! "p", chars! "build", chars! "llvm-install", chars! "include", chars! "arm64-Apple-darwin"], .dir),
      ([chars! "p", chars! "build", chars! "llvm-install", chars! "include", chars! "arm64-Apple-darwin",
        chars! "c++"], .dir),
      ([chars! "p", chars! "build", chars! "llvm-install", chars! "include", chars! "llvm-c"], .dir)]

/-- What is left of it at a place. -/
def trimmedItem (darwin : Bool) (p : Place) : Option (Option Item) :=
  (trimLlvm { builtHost with darwin } unpackedLlvm).map fun t =>
    t.item ([chars! "p", chars! "build", chars! "llvm-install"] ++ p)

example : trimmedItem true [chars! "lib", chars! "libc++.1.dylib"] = some none := by decide +kernel
example : trimmedItem true [chars! "lib", chars! "libclang.dylib"] = some (some (.file (chars! "clang"))) := by
  decide +kernel
example : trimmedItem true [chars! "include", chars! "c++", chars! "v1"] = some none := by decide +kernel
example : trimmedItem true [chars! "include", chars! "arm64-Apple-darwin", chars! "c++"] = some none := by
  decide +kernel
example : trimmedItem true [chars! "include", chars! "arm64-Apple-darwin"] = some (some .dir) := by decide +kernel
example : trimmedItem true [chars! "include", chars! "llvm-c"] = some (some .dir) := by decide +kernel
example : trimmedItem false [chars! "lib", chars! "libc++.1.dylib"] = some (some (.file (chars! "c++"))) := by
  decide +kernel

/-- It is a sound disk: the theorems say something about it. -/
example : SoundTree unpackedLlvm := by
  have hall : ∀ e ∈ unpackedLlvm.entries, ∀ q ∈ e.1.inits, q ≠ e.1 → unpackedLlvm.item q = some .dir := by
    decide +kernel
  intro p q hq hne hp
  have : ∃ e ∈ unpackedLlvm.entries, e.1 = p := by
    by_contra hno
    refine hp ((lookup_none_iff _ _).2 fun e he hep => hno ⟨e, he, hep⟩)
  obtain ⟨e, he, rfl⟩ := this
  exact hall e he q ((List.mem_inits _ _).2 hq) hne

/-- Tools that turn bitcode, which begins with `BC`, into native code. -/
def someTools : LibraryTools where
  llc := fun c => match c with
    | 'B' :: 'C' :: rest => some ('N' :: rest)
    | _ => none
  order := List.reverse
  extracts := true
  repacks := true

example : convertLibrary someTools [(chars! "a.o", chars! "BC1"), (chars! "b.o", chars! "N2")]
    = [(chars! "b.o", chars! "N2"), (chars! "a.o", chars! "N1")] := by decide +kernel
example : convertLibrary someTools [(chars! "a.o", chars! "BC1"), (chars! "a.o", chars! "BC2")]
    = [(chars! "a.o", chars! "N2")] := by decide +kernel
example : convertLibrary { someTools with repacks := false } [(chars! "a.o", chars! "BC1")]
    = [(chars! "a.o", chars! "BC1")] := by decide +kernel

example : findLlc (fun p => p = "/usr/local/opt/llvm/bin/llc".toList) true "/i/bin/llc".toList none
    = some "/usr/local/opt/llvm/bin/llc".toList := by decide +kernel
example : findLlc (fun p => p = "/usr/local/opt/llvm/bin/llc".toList) false "/i/bin/llc".toList none = none := by
  decide +kernel

/-- A run on a Mac: nothing is left of what `C110_no_headers` speaks of, so its hypotheses can be met. -/
example : ((clangScript { builtHost with darwin := true }
    { clean := true, skipConvert := true, download := fun _ => some, unpack := fun t => some
        { t with entries := unpackedLlvm.entries ++ t.entries }, convert := id } { entries := [] }).map fun t =>
      (t.item [chars! "p", chars! "build", chars! "llvm-install", chars! "include", chars! "c++"],
        t.item [chars! "p", chars! "build", chars! "llvm-install", chars! "include"]))
    = some (none, some .dir) := by decide +kernel

end Oclint
