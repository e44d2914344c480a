import Verif.Spec.Uploads
import Verif.Props.Bundle
import Verif.Lemmas.Scaffold

/-!
# C123: what is packed is uploaded, and replaces nothing
-/

namespace Oclint
open Spec

/-! ## Patterns -/

theorem restsOf_iff (s r : Str) : r ∈ restsOf s ↔ ∃ w, s = w ++ r := by
  induction s with
  | nil => simp [restsOf]
  | cons c s ih =>
    rw [restsOf, List.mem_cons, ih]
    constructor
    · rintro (rfl | ⟨w, rfl⟩)
      · exact ⟨[], rfl⟩
      · exact ⟨c :: w, rfl⟩
    · rintro ⟨w, e⟩
      cases w with
      | nil => exact .inl e.symm
      | cons a w =>
        rw [List.cons_append, List.cons.injEq] at e
        exact .inr ⟨w, e.2⟩

theorem glob_literal (p s : Str) (hp : '*' ∉ p) : globMatch p s = true ↔ s = p := by
  induction p generalizing s with
  | nil => cases s <;> simp [globMatch]
  | cons a p ih =>
    rw [List.mem_cons, not_or] at hp
    have ha : ¬ a = '*' := fun e => hp.1 e.symm
    cases s with
    | nil => simp [globMatch, ha]
    | cons c s =>
      rw [globMatch, if_neg ha, Bool.and_eq_true, decide_eq_true_eq, ih s hp.2, List.cons.injEq]
      exact ⟨fun h => ⟨h.1.symm, h.2⟩, fun h => ⟨h.1.symm, h.2⟩⟩

theorem glob_prefix (p q s : Str) (hp : '*' ∉ p) :
    globMatch (p ++ q) s = true ↔ ∃ r, s = p ++ r ∧ globMatch q r = true := by
  induction p generalizing s with
  | nil => simp
  | cons a p ih =>
    rw [List.mem_cons, not_or] at hp
    have ha : ¬ a = '*' := fun e => hp.1 e.symm
    cases s with
    | nil => simp [globMatch, ha]
    | cons c s =>
      rw [List.cons_append, globMatch, if_neg ha, Bool.and_eq_true, decide_eq_true_eq, ih s hp.2]
      constructor
      · rintro ⟨rfl, r, rfl, h⟩
        exact ⟨r, rfl, h⟩
      · rintro ⟨r, e, h⟩
        rw [List.cons_append, List.cons.injEq] at e
        exact ⟨e.1.symm, r, e.2, h⟩

theorem glob_any (q s : Str) : globMatch ('*' :: q) s = true ↔ ∃ w r, s = w ++ r ∧ globMatch q r = true := by
  rw [globMatch.eq_def]
  simp only [if_true]
  rw [List.any_eq_true]
  constructor
  · rintro ⟨r, hr, h⟩
    obtain ⟨w, e⟩ := (restsOf_iff s r).1 hr
    exact ⟨w, r, e, h⟩
  · rintro ⟨w, r, e, h⟩
    exact ⟨r, (restsOf_iff s r).2 ⟨w, e⟩, h⟩

theorem upload_filter (name : Str) : awsCopied uploadFilters name =
    globMatch (chars! "oclint-" ++ '*' :: chars! ".tar.gz") name := by
  have h1 : globMatch ['*'] name = true := (glob_any [] name).2 ⟨name, [], by simp, rfl⟩
  have e : awsCopied uploadFilters name =
      if globMatch (chars! "oclint-" ++ '*' :: chars! ".tar.gz") name then true
      else if globMatch ['*'] name then false else true := rfl
  rw [e, h1, if_pos rfl]
  generalize globMatch _ name = b
  cases b <;> rfl

/-- **C123.** Exactly what is named like an archive of the project is uploaded. -/
theorem C123_pattern (name : Str) : awsCopied uploadFilters name = true ↔ ArchiveName name := by
  have e1 : "oclint-".toList = chars! "oclint-" := rfl
  have e2 : ".tar.gz".toList = chars! ".tar.gz" := rfl
  unfold ArchiveName
  rw [upload_filter, glob_prefix (chars! "oclint-") _ _ (by decide), e1, e2]
  constructor
  · rintro ⟨r, rfl, h⟩
    obtain ⟨w, r', rfl, h'⟩ := (glob_any _ _).1 h
    rw [(glob_literal (chars! ".tar.gz") _ (by decide)).1 h']
    exact ⟨w, (List.append_assoc _ _ _).symm⟩
  · rintro ⟨w, rfl⟩
    exact ⟨w ++ chars! ".tar.gz", List.append_assoc _ _ _,
      (glob_any _ _).2 ⟨w, _, rfl, (glob_literal _ _ (by decide)).2 rfl⟩⟩

theorem uploaded_direct (root : Place) (name : Str) :
    uploaded root (root ++ ["build".toList, name]) = true ↔ ArchiveName name := by
  have e : nameInBuild root (root ++ ["build".toList, name]) = some name := by
    unfold nameInBuild
    have h1 : (root ++ ["build".toList]).isPrefixOf (root ++ ["build".toList, name]) = true := by
      rw [List.isPrefixOf_iff_prefix]
      exact ⟨[name], by simp⟩
    have h2 : (root ++ ["build".toList, name]).drop (root.length + 1) = [name] := by
      rw [← List.drop_drop, List.drop_left]
      rfl
    rw [if_pos h1, h2]
    simp [List.intercalate]
  unfold uploaded
  rw [e, Option.any_some]
  exact C123_pattern name

/-! ## The archives -/

/-- The name of the archive of a run. -/
theorem new_archive (h : BundleHost) (a : BundleArgs) (t t' : FileTree) (hs : SoundTree t)
    (ha : ApartFromRelease h a) (hn : a.archive = true) (hb : bundleScript h a t = some t') :
    newArchive t t' =
      some (h.root ++ ["build".toList, archivedAs h a ++ "-".toList ++ h.distEnv ++ ".tar.gz".toList]) := by
  obtain ⟨-, -, -, packed, e, -⟩ := C109_archive h a t t' hs ha hn hb
  unfold newArchive
  rw [e]
  simp

/-- **C123.** The archive of every run of `bundle` that makes one is uploaded. -/
theorem C123_uploaded (h : BundleHost) (a : BundleArgs) (t t' : FileTree) (hs : SoundTree t)
    (ha : ApartFromRelease h a) (hn : a.archive = true) (hb : bundleScript h a t = some t') :
    ∃ p, newArchive t t' = some p ∧ uploaded h.root p = true := by
  refine ⟨_, new_archive h a t t' hs ha hn hb, (uploaded_direct _ _).2 ?_⟩
  have : ∃ w, archivedAs h a = "oclint-".toList ++ w := by
    unfold archivedAs
    split
    · exact ⟨"26.02".toList, rfl⟩
    · exact ⟨"26.02.dev.".toList ++ h.commit, rfl⟩
  obtain ⟨w, e⟩ := this
  refine ⟨w ++ "-".toList ++ h.distEnv, ?_⟩
  rw [e]
  simp only [List.append_assoc]

theorem toLower_other {c : Char} (h : ¬ c.isUpper = true) : c.toLower = c := by
  unfold Char.toLower
  rw [dif_neg]
  intro hc
  exact h (by simpa [Char.isUpper] using hc)

theorem lower_dash {s : Str} (h : '-' ∉ s) : '-' ∉ s.map Char.toLower := by
  intro hm
  obtain ⟨c, hc, e⟩ := List.mem_map.1 hm
  by_cases hu : c.isUpper = true
  · have := (toLower_facts c hu).1
    rw [e] at this
    revert this
    decide
  · rw [toLower_other hu] at e
    exact h (e ▸ hc)

theorem dash_split {x y r s : Str} (hx : '-' ∉ x) (hy : '-' ∉ y) (h : x ++ '-' :: r = y ++ '-' :: s) :
    x = y ∧ r = s := by
  induction x generalizing y with
  | nil =>
    cases y with
    | nil => simpa using h
    | cons c y =>
      rw [List.nil_append, List.cons_append, List.cons.injEq] at h
      exact absurd (h.1 ▸ List.mem_cons_self) hy
  | cons a x ih =>
    rw [List.mem_cons, not_or] at hx
    cases y with
    | nil =>
      rw [List.nil_append, List.cons_append, List.cons.injEq] at h
      exact absurd h.1.symm hx.1
    | cons c y =>
      rw [List.mem_cons, not_or] at hy
      rw [List.cons_append, List.cons_append, List.cons.injEq] at h
      obtain ⟨e1, e2⟩ := ih hx.2 hy.2 h.2
      exact ⟨by rw [h.1, e1], e2⟩

theorem distEnv_inj (u v : Uname) (hu : NoDashes u) (hv : NoDashes v) :
    u.distEnv = v.distEnv ↔ SameSort u v := by
  constructor
  · intro h
    unfold Uname.distEnv at h
    simp only [List.append_assoc] at h
    obtain ⟨h1, h⟩ := dash_split (lower_dash hu.1) (lower_dash hv.1) h
    obtain ⟨h2, h3⟩ := dash_split (lower_dash hu.2) (lower_dash hv.2) h
    exact ⟨h1, h2, h3⟩
  · rintro ⟨h1, h2, h3⟩
    unfold Uname.distEnv Uname.arch Uname.kernel Uname.kernelVersion
    rw [h1, h2, h3]

/-- **C123.** Archives of the same commit that were made on two machines have the same name exactly if one
is a release like the other and the machines are of the same sort; so of the machines of a workflow none
replaces the archive of another. -/
theorem C123_apart (u v : Uname) (hu : NoDashes u) (hv : NoDashes v) (root root' : Place) (commit : Str)
    (a b : BundleArgs) (s s' t t' : FileTree) (hs : SoundTree s) (ht : SoundTree t)
    (ha : ApartFromRelease (u.host root commit) a) (hb : ApartFromRelease (v.host root' commit) b)
    (hna : a.archive = true) (hnb : b.archive = true)
    (h1 : bundleScript (u.host root commit) a s = some s')
    (h2 : bundleScript (v.host root' commit) b t = some t') :
    (newArchive s s').map (·.getLast?) = (newArchive t t').map (·.getLast?) ↔
      (a.release = b.release ∧ SameSort u v) := by
  rw [new_archive _ _ _ _ hs ha hna h1, new_archive _ _ _ _ ht hb hnb h2]
  simp only [Option.map_some, Option.some.injEq, List.getLast?_append, List.getLast?_cons_cons,
    List.getLast?_singleton, Option.some_or, List.append_cancel_right_eq]
  have ea : archivedAs (u.host root commit) a =
      if a.release then chars! "oclint-26.02" else chars! "oclint-26.02.dev." ++ commit := rfl
  have eb : archivedAs (v.host root' commit) b =
      if b.release then chars! "oclint-26.02" else chars! "oclint-26.02.dev." ++ commit := rfl
  rw [ea, eb]
  show _ ++ ['-'] ++ u.distEnv = _ ++ ['-'] ++ v.distEnv ↔ _
  rw [← distEnv_inj u v hu hv]
  cases a.release <;> cases b.release <;> simp

/-- The version in the name of an archive, without what every name begins with. -/
theorem archivedAs_rest (h : BundleHost) (a : BundleArgs) : archivedAs h a =
    chars! "oclint-" ++ (chars! "26.02" ++ if a.release then [] else chars! ".dev." ++ h.commit) := by
  unfold archivedAs
  cases a.release <;> rfl

/-- **C123.** Archives of any commits, made anywhere: they have the same name exactly if both are releases or
both are of one commit, and the machines are of the same sort.  So an archive that is left from another commit
is not replaced. -/
theorem C123_commits (u v : Uname) (hu : NoDashes u) (hv : NoDashes v) (root root' : Place) (c c' : Str)
    (hc : '-' ∉ c) (hc' : '-' ∉ c') (a b : BundleArgs) (s s' t t' : FileTree) (hs : SoundTree s)
    (ht : SoundTree t) (ha : ApartFromRelease (u.host root c) a) (hb : ApartFromRelease (v.host root' c') b)
    (hna : a.archive = true) (hnb : b.archive = true)
    (h1 : bundleScript (u.host root c) a s = some s') (h2 : bundleScript (v.host root' c') b t = some t') :
    (newArchive s s').map (·.getLast?) = (newArchive t t').map (·.getLast?) ↔
      (a.release = b.release ∧ (a.release = true ∨ c = c') ∧ SameSort u v) := by
  rw [new_archive _ _ _ _ hs ha hna h1, new_archive _ _ _ _ ht hb hnb h2, archivedAs_rest, archivedAs_rest]
  simp only [Option.map_some, Option.some.injEq, List.getLast?_append, List.getLast?_cons_cons,
    List.getLast?_singleton, Option.some_or, List.append_cancel_right_eq]
  simp only [List.append_assoc, List.append_cancel_left_eq]
  show _ ++ '-' :: u.distEnv = _ ++ '-' :: v.distEnv ↔ _
  have nodash : ∀ (r : Bool) (c : Str), '-' ∉ c → '-' ∉ (if r = true then [] else chars! ".dev." ++ c) := by
    intro r c hc
    cases r
    · simp [hc]
    · simp
  have split : ∀ x y : Str, '-' ∉ x → '-' ∉ y →
      (x ++ '-' :: u.distEnv = y ++ '-' :: v.distEnv ↔ x = y ∧ SameSort u v) := by
    intro x y hx hy
    rw [← distEnv_inj u v hu hv]
    constructor
    · exact dash_split hx hy
    · rintro ⟨rfl, e⟩
      rw [e]
  refine (split _ _ (nodash _ _ hc) (nodash _ _ hc')).trans ?_
  show ((if a.release = true then [] else chars! ".dev." ++ c) =
    if b.release = true then [] else chars! ".dev." ++ c') ∧ _ ↔ _
  cases a.release <;> cases b.release <;> simp

/-! ## The documentation -/

/-- **C123.** The archive of the documentation is uploaded too. -/
theorem C123_docs (root : Place) :
    uploaded root (root ++ ["build".toList, "oclint-docs-dev-snapshot.tar.gz".toList]) = true :=
  (uploaded_direct _ _).2 ⟨"docs-dev-snapshot".toList, by decide +kernel⟩

/-! ## Concrete cases -/

/-- The machines of `build.yaml`. -/
example : [(⟨chars! "Linux", chars! "6.11.0-1018-azure", chars! "x86_64"⟩ : Uname),
      ⟨chars! "Linux", chars! "6.11.0-1018-azure", chars! "aarch64"⟩,
      ⟨chars! "Darwin", chars! "25.2.0", chars! "arm64"⟩].map Uname.distEnv =
    [chars! "x86_64-linux-6.11.0-1018-azure", chars! "aarch64-linux-6.11.0-1018-azure",
      chars! "arm64-darwin-25.2.0"] := by decide +kernel

/-- With dashes machines of different sorts could have archives of the same name. -/
example : (⟨chars! "b-c", chars! "1", chars! "a"⟩ : Uname).distEnv =
    (⟨chars! "c", chars! "1", chars! "a-b"⟩ : Uname).distEnv := by decide +kernel

/-- Not everything is uploaded. -/
example : uploaded [chars! "o"] [chars! "o", chars! "build", chars! "oclint-release", chars! "bin", chars! "oclint"] =
    false ∧ uploaded [chars! "o"] [chars! "o", chars! "build", chars! "llvm.tar.gz"] = false ∧
    uploaded [chars! "o"] [chars! "o", chars! "build", chars! "oclint-1.tar.gz"] = true ∧
    uploaded [chars! "o"] [chars! "o", chars! "oclint-1.tar.gz"] = false := by decide +kernel

end Oclint
