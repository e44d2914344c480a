import Verif.Lemmas.BundleWhole

/-!
# Lemmas about assembling a release again
-/

namespace Oclint
open Spec

/-! ## Everything stays in a directory -/

theorem sound_set {t t' : FileTree} {d : Place} {n : Str} {i : Item} (hs : SoundTree t)
    (hd : t.item d = some .dir) (hn : t.item (d ++ [n]) ≠ some .dir)
    (hi : ∀ p, t'.item p = if p = d ++ [n] then some i else t.item p) : SoundTree t' := by
  intro p q hq hne hp
  have hqd : q ≠ d ++ [n] := by
    rintro rfl
    rw [hi, if_neg (fun h' => hne h'.symm)] at hp
    exact hn (hs p _ hq hne hp)
  rw [hi, if_neg hqd]
  by_cases hpe : p = d ++ [n]
  · rw [hpe] at hq hne
    have hq' : q <+: d := by
      rcases List.prefix_concat_iff.1 hq with h' | h'
      · exact absurd h' hne
      · exact h'
    by_cases he : q = d
    · rw [he]; exact hd
    · exact hs d q hq' he (by rw [hd]; nofun)
  · rw [hi, if_neg hpe] at hp
    exact hs p q hq hne hp

theorem sound_rmF {t : FileTree} (hs : SoundTree t) (d : Place) : SoundTree (t.rmF d) := by
  intro p q hq hne hp
  rw [item_rmF] at hp ⊢
  by_cases h1 : t.item d = some .dir ∧ d <+: p
  · rw [if_pos h1] at hp
    exact absurd rfl hp
  · rw [if_neg h1] at hp
    rw [if_neg (fun h' => h1 ⟨h'.1, h'.2.trans hq⟩)]
    exact hs p q hq hne hp

theorem sound_makedirs {t t' : FileTree} {d : Place} (hs : SoundTree t) (h : t.makedirs d = some t') :
    SoundTree t' := by
  have hall : ∀ q, q <+: d → t.item q = none ∨ t.item q = some .dir := by
    intro q hq
    unfold FileTree.makedirs at h
    split at h
    · rename_i hc
      have := List.all_eq_true.1 hc.2 q ((List.mem_inits _ _).2 hq)
      rw [Bool.or_eq_true, decide_eq_true_eq, isDir_iff] at this
      exact this
    · cases h
  intro p q hq hne hp
  rw [makedirs_some h] at hp ⊢
  by_cases h1 : q <+: d ∧ t.item q = none
  · rw [if_pos h1]
  · rw [if_neg h1]
    by_cases h2 : p <+: d ∧ t.item p = none
    · rcases hall q (hq.trans h2.1) with h3 | h3
      · exact absurd ⟨hq.trans h2.1, h3⟩ h1
      · exact h3
    · rw [if_neg h2] at hp
      exact hs p q hq hne hp

theorem sound_mkdirP {t t' : FileTree} {d : Place} (hs : SoundTree t) (h : t.mkdirP d = some t') :
    SoundTree t' := by
  unfold FileTree.mkdirP at h
  split at h
  · cases h; exact hs
  · exact sound_makedirs hs h

theorem sound_copyTree {t t' : FileTree} {src dst : Place} (hs : SoundTree t)
    (h : t.copyTree src dst = some t') : SoundTree t' := by
  unfold FileTree.copyTree at h
  split at h
  · rename_i hsrc
    rw [isDir_iff] at hsrc
    cases hm : t.makedirs dst with
    | none => rw [hm] at h; cases h
    | some t1 =>
      rw [hm] at h
      cases h
      have hs1 := sound_makedirs hs hm
      have hdst : t1.item dst = some .dir := by
        rw [makedirs_some hm]
        by_cases hn : t.item dst = none
        · rw [if_pos ⟨List.prefix_rfl, hn⟩]
        · rw [makedirs_taken hn] at hm
          cases hm
      have hfree : t.item dst = none := by
        by_cases hn : t.item dst = none
        · exact hn
        · rw [makedirs_taken hn] at hm
          cases hm
      have hi : ∀ p, FileTree.item { t1 with entries := relocated src dst t.entries ++ t1.entries } p =
          if dst <+: p then t.item (src ++ p.drop dst.length) else t1.item p := by
        intro p
        change lookup (relocated src dst t.entries ++ t1.entries) p = _
        rw [lookup_append, lookup_relocated]
        change (if dst <+: p then t.item (src ++ p.drop dst.length) else none).or (t1.item p) = _
        by_cases hp : dst <+: p
        · rw [if_pos hp, if_pos hp]
          by_cases hpe : p = dst
          · rw [hpe, List.drop_length, List.append_nil, hsrc]
            rfl
          · have : t1.item p = none := by
              rw [makedirs_some hm, if_neg]
              · by_cases hx : t.item p = none
                · exact hx
                · have := hs p dst hp (fun h' => hpe h'.symm) hx
                  rw [hfree] at this
                  cases this
              · rintro ⟨h', -⟩
                exact hpe (h'.eq_of_length (le_antisymm h'.length_le hp.length_le))
            rw [this, Option.or_none]
        · rw [if_neg hp, if_neg hp, Option.none_or]
      intro p q hq hne hp
      rw [hi] at hp ⊢
      by_cases h1 : dst <+: q
      · obtain ⟨y, rfl⟩ := h1
        obtain ⟨z, rfl⟩ := hq
        rw [if_pos ((List.prefix_append dst y).trans (List.prefix_append _ z)), List.append_assoc,
          List.drop_left] at hp
        rw [if_pos (List.prefix_append dst y), List.drop_left]
        refine hs _ _ ?_ ?_ hp
        · rw [← List.append_assoc]
          exact List.prefix_append _ _
        · intro h'
          apply hne
          have := List.append_cancel_left h'
          rw [List.append_assoc, ← this]
      · rw [if_neg h1]
        by_cases h2 : dst <+: p
        · have hqd : q <+: dst := by
            rcases List.prefix_or_prefix_of_prefix hq h2 with h' | h'
            · exact h'
            · exact absurd h' h1
          refine hs1 dst q hqd ?_ (by rw [hdst]; nofun)
          rintro rfl
          exact h1 List.prefix_rfl
        · rw [if_neg h2] at hp
          exact hs1 p q hq hne hp
  · cases h

theorem sound_write {t t' : FileTree} {d : Place} {n text : Str} (hs : SoundTree t)
    (h : t.write d n text = some t') : SoundTree t' := by
  unfold FileTree.write at h
  split at h
  · rename_i hc
    cases h
    refine sound_set hs ((isDir_iff t d).1 hc.1) ?_ (item_put t _ _)
    intro h'
    rw [(isDir_iff t _).2 h'] at hc
    cases hc.2
  · cases h

theorem sound_linkAt {t t' : FileTree} {d : Place} {n target : Str} (hs : SoundTree t)
    (h : t.linkAt d n target = some t') : SoundTree t' := by
  unfold FileTree.linkAt at h
  split at h
  · rename_i hc
    cases h
    refine sound_set hs ((isDir_iff t d).1 hc.1) ?_ (item_put t _ _)
    rw [hc.2]
    nofun
  · cases h

theorem sound_makeLinks {d : Place} (ls : List (Str × Str)) {t t' : FileTree} (hs : SoundTree t)
    (h : makeLinks d ls t = some t') : SoundTree t' := by
  induction ls generalizing t with
  | nil => cases h; exact hs
  | cons l ls ih =>
    unfold makeLinks at h
    obtain ⟨t1, h1, h2⟩ := Option.bind_eq_some_iff.1 h
    exact ih (sound_linkAt hs h1) h2

theorem sound_helper {h : BundleHost} {name : Str} {t t' : FileTree} (hs : SoundTree t)
    (hh : installHelper h name t = some t') : SoundTree t' := by
  unfold installHelper FileTree.copyFile at hh
  split at hh
  · split at hh
    · exact sound_write hs hh
    · cases hh
  · cases hh; exact hs

theorem sound_assemble {h : BundleHost} {a : BundleArgs} {t t' : FileTree} (hs : SoundTree t)
    (hh : assembleBundle h a t = some t') : SoundTree t' := by
  unfold assembleBundle at hh
  obtain ⟨t4, h4, hh⟩ := Option.bind_eq_some_iff.1 hh
  obtain ⟨t3, h3, h4⟩ := Option.bind_eq_some_iff.1 h4
  obtain ⟨t2, h2, h3⟩ := Option.bind_eq_some_iff.1 h3
  obtain ⟨t1, h1, h2⟩ := Option.bind_eq_some_iff.1 h2
  have s1 : SoundTree t1 := by
    unfold setupReleaseDir at h1
    obtain ⟨u2, k2, h1⟩ := Option.bind_eq_some_iff.1 h1
    obtain ⟨u1, k1, k2⟩ := Option.bind_eq_some_iff.1 k2
    exact sound_mkdirP (sound_mkdirP (sound_mkdirP (sound_rmF hs _) k1) k2) h1
  have s2 : SoundTree t2 := by
    unfold installLicenses at h2
    obtain ⟨u1, k1, h2⟩ := Option.bind_eq_some_iff.1 h2
    split at h2
    · obtain ⟨more, -, h2⟩ := Option.bind_eq_some_iff.1 h2
      exact sound_write (sound_write s1 k1) h2
    · cases h2
  have s3 : SoundTree t3 := by
    unfold installBinary at h3
    obtain ⟨u1, k1, h3⟩ := Option.bind_eq_some_iff.1 h3
    exact sound_makeLinks _ (sound_copyTree s2 k1) h3
  have s4 : SoundTree t4 := sound_copyTree s3 h4
  split at hh
  · cases hh; exact s4
  · obtain ⟨u3, k3, hh⟩ := Option.bind_eq_some_iff.1 hh
    obtain ⟨u2, k2, k3⟩ := Option.bind_eq_some_iff.1 k3
    obtain ⟨u1, k1, k2⟩ := Option.bind_eq_some_iff.1 k2
    have r3 : SoundTree u3 := sound_helper (sound_copyTree (sound_copyTree s4 k1) k2) k3
    split at hh
    · obtain ⟨u4, k4, hh⟩ := Option.bind_eq_some_iff.1 hh
      have r4 := sound_helper r3 k4
      unfold installCppHeaders at hh
      split at hh
      · cases hh; exact r4
      · obtain ⟨u5, k5, hh⟩ := Option.bind_eq_some_iff.1 hh
        exact sound_copyTree (sound_mkdirP r4 k5) hh
    · cases hh; exact r3

theorem sound_move {t t' : FileTree} {src d : Place} {n : Str} (hs : SoundTree t)
    (h : t.move src (d ++ [n]) = some t') (ha : ApartPlaces src (d ++ [n]))
    (hd : t.item d = some .dir) : SoundTree t' := by
  have hsrc := ((move_iff t src (d ++ [n])).1 ⟨t', h⟩).1
  obtain ⟨-, hi⟩ := move_some h
  intro p q hq hne hp
  rw [hi] at hp ⊢
  by_cases h1 : d ++ [n] <+: q
  · obtain ⟨y, rfl⟩ := h1
    obtain ⟨z, rfl⟩ := hq
    rw [if_pos ((List.prefix_append _ y).trans (List.prefix_append _ z)),
      List.append_assoc (d ++ [n]), List.drop_left] at hp
    rw [if_pos (List.prefix_append _ y), List.drop_left]
    refine hs _ _ ?_ ?_ hp
    · rw [← List.append_assoc]
      exact List.prefix_append _ _
    · intro h'
      apply hne
      have := List.append_cancel_left h'
      rw [List.append_assoc (d ++ [n]), ← this]
  · rw [if_neg h1]
    by_cases h2 : d ++ [n] <+: p
    · have hqd : q <+: d ++ [n] := by
        rcases List.prefix_or_prefix_of_prefix hq h2 with h' | h'
        · exact h'
        · exact absurd h' h1
      have hne' : q ≠ d ++ [n] := by
        rintro rfl
        exact h1 List.prefix_rfl
      have hqd' : q <+: d := by
        rcases List.prefix_concat_iff.1 hqd with h' | h'
        · exact absurd h' hne'
        · exact h'
      rw [if_neg (fun h' => ha.1 (h'.trans hqd))]
      by_cases he : q = d
      · rw [he]; exact hd
      · exact hs d q hqd' he (by rw [hd]; nofun)
    · rw [if_neg h2] at hp
      by_cases h3 : src <+: p
      · rw [if_pos h3] at hp
        exact absurd rfl hp
      · rw [if_neg h3] at hp
        rw [if_neg (fun h' => h3 (h'.trans hq))]
        exact hs p q hq hne hp

/-! ## The same release from the same sources -/

/-- Two disks with the same sources. -/
structure SameSources (h : BundleHost) (a : BundleArgs) (t t' : FileTree) : Prop where
  license : t'.item (h.root ++ ["LICENSE".toList]) = t.item (h.root ++ ["LICENSE".toList])
  llvmLicense : llvmLicenseItem h a t' = llvmLicenseItem h a t
  copied : ∀ c ∈ copied h a, ∀ y, t'.item (c.2 ++ y) = t.item (c.2 ++ y)
  helpers : ∀ name ∈ helpers h a, helperText h t' name = helperText h t name

theorem released_same {h : BundleHost} {a : BundleArgs} {t t' : FileTree} (hs : SameSources h a t t')
    (p : Place) : released h a t' p = released h a t p := by
  have h1 : licenseText h a t' = licenseText h a t := by
    unfold licenseText
    rw [hs.license, hs.llvmLicense]
  have h2 : ((helpers h a).findSome? fun name =>
      if p = ["bin".toList, name] then helperText h t' name else none) =
      (helpers h a).findSome? fun name =>
      if p = ["bin".toList, name] then helperText h t name else none := by
    have : ∀ l : List Str, (∀ n ∈ l, n ∈ helpers h a) → (l.findSome? fun name =>
      if p = ["bin".toList, name] then helperText h t' name else none) =
      l.findSome? fun name => if p = ["bin".toList, name] then helperText h t name else none := by
      intro l
      induction l with
      | nil => intro _; rfl
      | cons n l ih =>
        intro hl
        rw [List.findSome?_cons, List.findSome?_cons, hs.helpers n (hl n List.mem_cons_self),
          ih (fun m hm => hl m (List.mem_cons_of_mem _ hm))]
    exact this _ (fun _ h' => h')
  have h3 : (((Spec.copied h a).find? fun c => decide (c.1 <+: p)).bind fun c =>
      t'.item (c.2 ++ p.drop c.1.length)) =
      ((Spec.copied h a).find? fun c => decide (c.1 <+: p)).bind fun c =>
      t.item (c.2 ++ p.drop c.1.length) := by
    cases hf : (Spec.copied h a).find? fun c => decide (c.1 <+: p) with
    | none => rfl
    | some c => exact hs.copied c (List.mem_of_find?_eq_some hf) _
  unfold released
  rw [h1, h2, h3]

theorem helpers_not_build (h : BundleHost) (a : BundleArgs) {name : Str} (hn : name ∈ helpers h a) :
    name ≠ "build".toList := by
  have h1 : "oclint-json-compilation-database".toList ≠ "build".toList := by decide +kernel
  have h2 : "oclint-xcodebuild".toList ≠ "build".toList := by decide +kernel
  unfold helpers at hn
  cases hdoc : a.docgen <;> cases hdar : h.darwin <;> rw [hdoc, hdar] at hn
  · simp only [Bool.false_eq_true, if_false, List.mem_singleton] at hn
    rw [hn]; exact h1
  · simp only [Bool.false_eq_true, if_false, if_true, List.mem_cons, List.not_mem_nil, or_false] at hn
    rcases hn with rfl | rfl
    · exact h1
    · exact h2
  · cases hn
  · cases hn

theorem copied_apart {h : BundleHost} {a : BundleArgs} (ha : ApartFromRelease h a) {c : Place × Place}
    (hc : c ∈ copied h a) : ApartPlaces (releaseDirectory h) c.2 := by
  have a1 := not_release_build (h := h) "oclint-driver".toList ["bin".toList] rfl (by decide)
  have a2 := not_release_build (h := h) "oclint-rules".toList ["rules.dl".toList] rfl (by decide)
  have a3 := not_release_build (h := h) "oclint-reporters".toList ["reporters.dl".toList] rfl (by decide)
  unfold copied at hc
  cases hdoc : a.docgen <;> cases hcpp : withCppHeaders h a <;> rw [hdoc, hcpp] at hc <;>
    simp only [Bool.false_eq_true, if_false, if_true, List.append_nil, List.cons_append, List.nil_append,
      List.mem_cons, List.not_mem_nil, or_false] at hc
  · rcases hc with rfl | rfl | rfl | rfl
    · exact a1
    · exact a2
    · exact a3
    · exact ha.headers
  · rcases hc with rfl | rfl | rfl | rfl | rfl
    · exact a1
    · exact a2
    · exact a3
    · exact ha.headers
    · exact ha.cppHeaders
  · rcases hc with rfl | rfl
    · exact a1
    · exact a2
  · rcases hc with rfl | rfl | rfl
    · exact a1
    · exact a2
    · exact ha.cppHeaders

/-- What is outside the release decides what is in it. -/
theorem sameSources_of {h : BundleHost} {a : BundleArgs} {t t' : FileTree} (ha : ApartFromRelease h a)
    (hi : ∀ p, ¬ releaseDirectory h <+: p → t'.item p = t.item p) : SameSources h a t t' := by
  refine ⟨hi _ (not_release_of "LICENSE".toList [] rfl (by decide)), ?_, ?_, ?_⟩
  · unfold llvmLicenseItem
    rw [hi _ ha.license.1, hi _ (not_release_of "llvm".toList ["LICENSE.TXT".toList] rfl (by decide))]
  · intro c hc y
    exact hi _ (apart_below (copied_apart ha hc) (List.prefix_append _ _))
  · intro name hn
    unfold helperText
    rw [hi _ (not_release_of name [name] rfl (helpers_not_build h a hn))]

theorem ready_same {h : BundleHost} {a : BundleArgs} {t t' : FileTree} (hs : SameSources h a t t')
    (hd : t'.item (releaseDirectory h) = none ∨ t'.item (releaseDirectory h) = some .dir)
    (hr : ReadyToBundle h a t) : ReadyToBundle h a t' := by
  have hdrv : ∀ n, t'.item (h.root ++ ["build".toList, "oclint-driver".toList, "bin".toList, n]) =
      t.item (h.root ++ ["build".toList, "oclint-driver".toList, "bin".toList, n]) := by
    intro n
    have := hs.copied _ (copied_driver h a) [n]
    simpa using this
  refine ⟨hd, ?_, ?_, ?_, ?_, ?_⟩
  · rw [hs.license]; exact hr.license
  · rw [hs.llvmLicense]; exact hr.llvmLicense
  · intro c hc
    have := hs.copied c hc []
    rw [List.append_nil] at this
    rw [this]
    exact hr.built c hc
  · intro n hn
    rw [hdrv]
    exact hr.names n hn
  · intro n hn
    rw [hdrv, hs.helpers n hn]
    exact hr.programs n hn

end Oclint
