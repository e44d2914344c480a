import Verif.Spec.Bundle
import Mathlib.Data.List.Infix

/-!
# Lemmas about assembling a release
-/

namespace Oclint
open Spec

/-! ## Finding entries -/

theorem lookup_cons (e : Place × Item) (es : List (Place × Item)) (p : Place) :
    lookup (e :: es) p = if e.1 = p then some e.2 else lookup es p := by
  unfold lookup
  rw [List.find?_cons]
  by_cases h : e.1 = p
  · simp [h]
  · simp [h]

theorem lookup_append (a b : List (Place × Item)) (p : Place) :
    lookup (a ++ b) p = (lookup a p).or (lookup b p) := by
  unfold lookup
  rw [List.find?_append]
  cases List.find? (fun e => decide (e.1 = p)) a <;> rfl

theorem lookup_keep (f : Place → Bool) (es : List (Place × Item)) (p : Place) :
    lookup (es.filter fun e => f e.1) p = if f p then lookup es p else none := by
  induction es with
  | nil => simp [lookup]
  | cons e es ih =>
    rw [List.filter_cons]
    by_cases he : f e.1 = true
    · rw [if_pos he, lookup_cons, lookup_cons, ih]
      by_cases hp : e.1 = p
      · rw [if_pos hp, if_pos hp, ← hp, if_pos he]
      · rw [if_neg hp, if_neg hp]
    · rw [if_neg he, lookup_cons, ih]
      by_cases hp : e.1 = p
      · rw [← hp, if_neg he, if_neg he]
      · rw [if_neg hp]

theorem lookup_elsewhere (d : Place) (es : List (Place × Item)) (p : Place) :
    lookup (elsewhere d es) p = if d <+: p then none else lookup es p := by
  unfold elsewhere
  rw [lookup_keep (fun q => !decide (d <+: q))]
  by_cases h : d <+: p <;> simp [h]

theorem lookup_relocated (src dst : Place) (es : List (Place × Item)) (p : Place) :
    lookup (relocated src dst es) p =
      if dst <+: p then lookup es (src ++ p.drop dst.length) else none := by
  unfold relocated below'
  induction es with
  | nil => simp [lookup]
  | cons e es ih =>
    rw [List.filter_cons, lookup_cons]
    by_cases hs : src <+: e.1
    · obtain ⟨r, hr⟩ := hs
      have hs : src <+: e.1 := ⟨r, hr⟩
      rw [if_pos (decide_eq_true hs), List.map_cons, lookup_cons, ih]
      have hd : e.1.drop src.length = r := by rw [← hr, List.drop_left]
      simp only [hd]
      by_cases hp : dst <+: p
      · obtain ⟨q, rfl⟩ := hp
        have hq : dst <+: dst ++ q := List.prefix_append dst q
        simp only [if_pos hq, List.drop_left, ← hr]
        simp
      · have : ¬ dst ++ r = p := fun h => hp ⟨r, h⟩
        rw [if_neg this, if_neg hp, if_neg hp]
    · rw [if_neg (by simpa using hs), ih]
      by_cases hp : dst <+: p
      · have : ¬ e.1 = src ++ p.drop dst.length := fun h => hs ⟨_, h.symm⟩
        rw [if_pos hp, if_pos hp, if_neg this]
      · rw [if_neg hp, if_neg hp]

theorem lookup_dirs (qs : List Place) (p : Place) :
    lookup (qs.map fun q => (q, Item.dir)) p = if p ∈ qs then some .dir else none := by
  induction qs with
  | nil => simp [lookup]
  | cons q qs ih =>
    rw [List.map_cons, lookup_cons, ih]
    by_cases h : q = p
    · simp [h]
    · have : p ≠ q := fun h' => h h'.symm
      simp [h, this]

theorem lookup_none_iff (es : List (Place × Item)) (p : Place) :
    lookup es p = none ↔ ∀ e ∈ es, e.1 ≠ p := by
  unfold lookup
  simp

/-! ## The operations -/

theorem item_put (t : FileTree) (p : Place) (i : Item) (q : Place) :
    (t.put p i).item q = if q = p then some i else t.item q := by
  unfold FileTree.put FileTree.item
  rw [lookup_cons]
  by_cases h : p = q
  · simp [h]
  · have : q ≠ p := fun h' => h h'.symm
    simp [h, this]

theorem isDir_iff (t : FileTree) (p : Place) : t.isDir p = true ↔ t.item p = some .dir := by
  simp [FileTree.isDir]

theorem item_rmF (t : FileTree) (d p : Place) :
    (t.rmF d).item p = if t.item d = some .dir ∧ d <+: p then none else t.item p := by
  unfold FileTree.rmF
  by_cases h : t.item d = some .dir
  · rw [if_pos ((isDir_iff t d).2 h)]
    unfold FileTree.item
    rw [lookup_elsewhere]
    unfold FileTree.item at h
    simp [h]
  · rw [if_neg (fun h' => h ((isDir_iff t d).1 h'))]
    simp [h]

theorem tarballs_rmF (t : FileTree) (d : Place) : (t.rmF d).tarballs = t.tarballs := by
  unfold FileTree.rmF
  split <;> rfl

theorem makedirs_some {t t' : FileTree} {d : Place} (h : t.makedirs d = some t') (p : Place) :
    t'.item p = (if p <+: d ∧ t.item p = none then some .dir else t.item p) := by
  unfold FileTree.makedirs at h
  split at h
  · cases h
    unfold FileTree.item
    rw [lookup_append, lookup_dirs]
    by_cases hp : p <+: d ∧ t.item p = none
    · have : p ∈ d.inits.filter fun q => decide (lookup t.entries q = none) := by
        rw [List.mem_filter, List.mem_inits]
        exact ⟨hp.1, decide_eq_true hp.2⟩
      unfold FileTree.item at hp
      rw [if_pos this, if_pos hp]
      rfl
    · have : p ∉ d.inits.filter fun q => decide (lookup t.entries q = none) := by
        rw [List.mem_filter, List.mem_inits]
        intro h'
        exact hp ⟨h'.1, of_decide_eq_true h'.2⟩
      unfold FileTree.item at hp
      rw [if_neg this, if_neg hp]
      rfl
  · cases h

theorem tarballs_makedirs {t t' : FileTree} {d : Place} (h : t.makedirs d = some t') :
    t'.tarballs = t.tarballs := by
  unfold FileTree.makedirs at h
  split at h
  · cases h; rfl
  · cases h

/-- The directories that lead to a place are there. -/
def Reachable (t : FileTree) (d : Place) : Prop := ∀ q, q <+: d → q ≠ d → t.item q = some .dir

theorem makedirs_reachable {t : FileTree} {d : Place} (hd : Reachable t d) (hf : t.item d = none) :
    ∃ t', t.makedirs d = some t' ∧ t'.tarballs = t.tarballs ∧
      ∀ p, t'.item p = if p = d then some .dir else t.item p := by
  have hok : t.item d = none ∧ d.inits.all (fun q => decide (t.item q = none) || t.isDir q) = true := by
    refine ⟨hf, ?_⟩
    rw [List.all_eq_true]
    intro q hq
    rw [List.mem_inits] at hq
    by_cases h : q = d
    · rw [h, hf]; rfl
    · rw [(isDir_iff t q).2 (hd q hq h)]
      simp
  obtain ⟨t', ht'⟩ : ∃ t', t.makedirs d = some t' := by
    unfold FileTree.makedirs
    rw [if_pos hok]
    exact ⟨_, rfl⟩
  refine ⟨t', ht', tarballs_makedirs ht', fun p => ?_⟩
  rw [makedirs_some ht']
  by_cases hp : p = d
  · subst hp
    rw [if_pos ⟨List.prefix_rfl, hf⟩, if_pos rfl]
  · rw [if_neg hp]
    by_cases h : p <+: d ∧ t.item p = none
    · have := hd p h.1 hp
      rw [h.2] at this
      cases this
    · rw [if_neg h]

theorem makedirs_taken {t : FileTree} {d : Place} (h : t.item d ≠ none) : t.makedirs d = none := by
  unfold FileTree.makedirs
  rw [if_neg (fun h' => h h'.1)]

/-! ## A release in the making -/

/-- A disk is as before except for one directory, where it is as told. -/
structure Holds (t0 : FileTree) (r : Place) (f : Place → Option Item) (t : FileTree) : Prop where
  item : ∀ p, t.item p = if r <+: p then f (p.drop r.length) else t0.item p
  tarballs : t.tarballs = t0.tarballs

theorem Holds.inside {t0 : FileTree} {r : Place} {f : Place → Option Item} {t : FileTree}
    (h : Holds t0 r f t) (x : Place) : t.item (r ++ x) = f x := by
  rw [h.item, if_pos (List.prefix_append r x), List.drop_left]

theorem Holds.outside {t0 : FileTree} {r : Place} {f : Place → Option Item} {t : FileTree}
    (h : Holds t0 r f t) {p : Place} (hp : ¬ r <+: p) : t.item p = t0.item p := by
  rw [h.item, if_neg hp]

/-- One place changes. -/
def setAt (x : Place) (i : Item) (f : Place → Option Item) : Place → Option Item :=
  fun p => if p = x then some i else f p

/-- A directory changes. -/
def graftAt (x : Place) (g : Place → Option Item) (f : Place → Option Item) : Place → Option Item :=
  fun p => if x <+: p then g (p.drop x.length) else f p

/-- A step succeeds under a condition, and then the release is as told. -/
def Steps (t0 : FileTree) (r : Place) (o : Option FileTree) (c : Prop) (f : Place → Option Item) : Prop :=
  (∃ t, o = some t ∧ c ∧ Holds t0 r f t) ∨ (o = none ∧ ¬ c)

theorem Steps.bind {t0 : FileTree} {r : Place} {o : Option FileTree} {c c' : Prop}
    {f f' : Place → Option Item} {k : FileTree → Option FileTree} (h : Steps t0 r o c f)
    (hk : c → ∀ t, Holds t0 r f t → Steps t0 r (k t) c' f') : Steps t0 r (o.bind k) (c ∧ c') f' := by
  rcases h with ⟨t, rfl, hc, ht⟩ | ⟨rfl, hc⟩
  · rcases hk hc t ht with ⟨t', h1, h2, h3⟩ | ⟨h1, h2⟩
    · exact Or.inl ⟨t', h1, ⟨hc, h2⟩, h3⟩
    · exact Or.inr ⟨h1, fun h => h2 h.2⟩
  · exact Or.inr ⟨rfl, fun h => hc h.1⟩

theorem Steps.iff {t0 : FileTree} {r : Place} {o : Option FileTree} {c c' : Prop}
    {f : Place → Option Item} (h : Steps t0 r o c f) (hc : c ↔ c') : Steps t0 r o c' f := by
  rcases h with ⟨t, h1, h2, h3⟩ | ⟨h1, h2⟩
  · exact Or.inl ⟨t, h1, hc.1 h2, h3⟩
  · exact Or.inr ⟨h1, fun h => h2 (hc.2 h)⟩

theorem Steps.none_ {t0 : FileTree} {r : Place} {t : FileTree} {f : Place → Option Item}
    (h : Holds t0 r f t) : Steps t0 r (some t) True f := Or.inl ⟨t, rfl, trivial, h⟩

theorem append_right_inj_iff (r p x : Place) : (r ++ p = r ++ x) = (p = x) := by simp

theorem holds_set {t0 : FileTree} {r : Place} {f : Place → Option Item} {t t' : FileTree}
    (h : Holds t0 r f t) (x : Place) (i : Item)
    (hi : ∀ p, t'.item p = if p = r ++ x then some i else t.item p) (ht : t'.tarballs = t.tarballs) :
    Holds t0 r (setAt x i f) t' := by
  refine ⟨fun p => ?_, ht.trans h.tarballs⟩
  rw [hi]
  by_cases hp : r <+: p
  · obtain ⟨q, rfl⟩ := hp
    have hq : r <+: r ++ q := List.prefix_append r q
    rw [if_pos hq, List.drop_left, h.inside]
    unfold setAt
    simp
  · have : p ≠ r ++ x := fun h' => hp ⟨x, h'.symm⟩
    rw [if_neg hp, if_neg this, h.outside hp]

theorem steps_mkdir {t0 : FileTree} {r : Place} {f : Place → Option Item} {t : FileTree}
    (h : Holds t0 r f t) (x : Place) (hr : Reachable t (r ++ x)) (hx : f x = none) :
    Steps t0 r (t.mkdirP (r ++ x)) True (setAt x .dir f) := by
  have hn : t.item (r ++ x) = none := by rw [h.inside, hx]
  obtain ⟨t', h1, h2, h3⟩ := makedirs_reachable hr hn
  refine Or.inl ⟨t', ?_, trivial, holds_set h x .dir h3 h2⟩
  unfold FileTree.mkdirP
  rw [if_neg, h1]
  rw [isDir_iff, hn]
  nofun

theorem steps_write {t0 : FileTree} {r : Place} {f : Place → Option Item} {t : FileTree}
    (h : Holds t0 r f t) (d : Place) (name text : Str) (hd : f d = some .dir) :
    Steps t0 r (t.write (r ++ d) name text) (f (d ++ [name]) ≠ some .dir)
      (setAt (d ++ [name]) (.file text) f) := by
  have h1 : t.isDir (r ++ d) = true := by rw [isDir_iff, h.inside, hd]
  have h2 : t.isDir (r ++ d ++ [name]) = true ↔ f (d ++ [name]) = some .dir := by
    rw [isDir_iff, List.append_assoc, h.inside]
  unfold FileTree.write
  by_cases hn : f (d ++ [name]) = some .dir
  · refine Or.inr ⟨?_, fun h' => h' hn⟩
    rw [if_neg]
    rw [h2.2 hn]
    simp
  · have h4 : t.isDir (r ++ d ++ [name]) = false := by
      cases h3 : t.isDir (r ++ d ++ [name]) with
      | true => exact absurd (h2.1 h3) hn
      | false => rfl
    refine Or.inl ⟨_, if_pos ⟨h1, h4⟩, hn, holds_set h _ _ ?_ rfl⟩
    intro p
    rw [item_put, List.append_assoc]

theorem steps_link {t0 : FileTree} {r : Place} {f : Place → Option Item} {t : FileTree}
    (h : Holds t0 r f t) (d : Place) (name target : Str) (hd : f d = some .dir) :
    Steps t0 r (t.linkAt (r ++ d) name target) (f (d ++ [name]) = none)
      (setAt (d ++ [name]) (.link target) f) := by
  have h1 : t.isDir (r ++ d) = true := by rw [isDir_iff, h.inside, hd]
  have h2 : t.item (r ++ d ++ [name]) = f (d ++ [name]) := by
    rw [List.append_assoc, h.inside]
  unfold FileTree.linkAt
  rw [h2]
  by_cases hn : f (d ++ [name]) = none
  · refine Or.inl ⟨_, if_pos ⟨h1, hn⟩, hn, holds_set h _ _ ?_ rfl⟩
    intro p
    rw [item_put, List.append_assoc]
  · exact Or.inr ⟨if_neg (fun h' => hn h'.2), hn⟩

theorem steps_copyTree {t0 : FileTree} {r : Place} {f : Place → Option Item} {t : FileTree}
    (h : Holds t0 r f t) (src x : Place) (hs : ApartPlaces r src)
    (hr : Reachable t (r ++ x)) (hx : ∀ y, f (x ++ y) = none) :
    Steps t0 r (t.copyTree src (r ++ x)) (t0.item src = some .dir)
      (graftAt x (fun y => t0.item (src ++ y)) f) := by
  have hout : ∀ y, ¬ r <+: src ++ y := by
    intro y hp
    rcases List.prefix_or_prefix_of_prefix hp (List.prefix_append src y) with h' | h'
    · exact hs.1 h'
    · exact hs.2 h'
  have hsrc : t.item src = t0.item src := h.outside hs.1
  unfold FileTree.copyTree
  by_cases hd : t0.item src = some .dir
  · have hn : t.item (r ++ x) = none := by
      rw [h.inside]
      simpa using hx []
    obtain ⟨t', h1, h2, h3⟩ := makedirs_reachable hr hn
    rw [if_pos ((isDir_iff t src).2 (hsrc.trans hd)), h1]
    refine Or.inl ⟨_, rfl, hd, ⟨fun p => ?_, h2.trans h.tarballs⟩⟩
    change lookup (relocated src (r ++ x) t.entries ++ t'.entries) p = _
    rw [lookup_append, lookup_relocated]
    change (if r ++ x <+: p then t.item (src ++ p.drop (r ++ x).length) else none).or (t'.item p) = _
    rw [h3]
    by_cases hp : r ++ x <+: p
    · obtain ⟨y, rfl⟩ := hp
      rw [if_pos (List.prefix_append (r ++ x) y), List.drop_left, h.outside (hout y), List.append_assoc,
        if_pos (List.prefix_append r _), List.drop_left]
      unfold graftAt
      rw [if_pos (List.prefix_append x y), List.drop_left]
      have hnone : t.item (r ++ (x ++ y)) = none := by rw [h.inside, hx]
      rw [hnone]
      by_cases hy : y = []
      · subst hy
        simp [hd]
      · simp [hy]
    · have hp' : p ≠ r ++ x := fun h' => hp (h' ▸ List.prefix_rfl)
      rw [if_neg hp, if_neg hp', h.item]
      simp only [Option.none_or]
      by_cases hrp : r <+: p
      · obtain ⟨q, rfl⟩ := hrp
        have hq : r <+: r ++ q := List.prefix_append r q
        rw [if_pos hq, if_pos hq, List.drop_left]
        unfold graftAt
        rw [if_neg]
        intro hq
        exact hp (by simpa using hq)
      · rw [if_neg hrp, if_neg hrp]
  · exact Or.inr ⟨if_neg (fun h' => hd (hsrc.symm.trans ((isDir_iff t src).1 h'))), hd⟩

/-! ## The steps of the script -/

theorem releasePlace_eq (h : BundleHost) : releasePlace h = releaseDirectory h := by
  have : "oclint-".toList ++ "release".toList = "oclint-release".toList := by decide +kernel
  unfold releasePlace buildPlace releaseDirectory
  rw [this]

theorem reachable_inside {t0 : FileTree} {r : Place} {f : Place → Option Item} {t : FileTree}
    (h : Holds t0 r f t) (hr : Reachable t0 r) (x : Place)
    (hx : ∀ y ∈ x.inits, y ≠ x → f y = some .dir) : Reachable t (r ++ x) := by
  intro q hq hne
  rcases List.prefix_or_prefix_of_prefix hq (List.prefix_append r x) with hqr | hrq
  · by_cases he : r <+: q
    · have : q = r := hqr.eq_of_length (le_antisymm hqr.length_le he.length_le)
      subst this
      have := h.inside []
      rw [List.append_nil] at this
      rw [this]
      refine hx [] ?_ ?_
      · rw [List.mem_inits]; exact List.nil_prefix
      · rintro rfl
        simp at hne
    · rw [h.outside he]
      refine hr q hqr ?_
      rintro rfl
      exact he List.prefix_rfl
  · obtain ⟨y, rfl⟩ := hrq
    rw [h.inside]
    refine hx y ?_ ?_
    · rw [List.mem_inits]
      simpa using hq
    · rintro rfl
      exact hne rfl

/-- The release after the first step. -/
def emptyRelease : Place → Option Item :=
  setAt ["lib".toList, "oclint".toList] .dir (setAt ["lib".toList] .dir (setAt [] .dir fun _ => none))

theorem steps_setup (h : BundleHost) (t : FileTree) (hs : SoundTree t) (hr : Reachable t (releaseDirectory h)) :
    Steps t (releaseDirectory h) (setupReleaseDir h t)
      (t.item (releaseDirectory h) = none ∨ t.item (releaseDirectory h) = some .dir) emptyRelease := by
  unfold setupReleaseDir libOclintPlace libPlace
  rw [releasePlace_eq]
  generalize hR : releaseDirectory h = r at *
  by_cases hfree : t.item r = none ∨ t.item r = some .dir
  · have h0 : Holds t r (fun _ => none) (t.rmF r) := by
      refine ⟨fun p => ?_, tarballs_rmF t r⟩
      rw [item_rmF]
      by_cases hp : r <+: p
      · rw [if_pos hp]
        rcases hfree with hn | hd
        · rw [if_neg]
          · by_cases hi : t.item p = none
            · exact hi
            · by_cases he : r = p
              · rw [← he, hn]
              · have := hs p r hp he hi
                rw [hn] at this
                cases this
          · rw [hn]
            rintro ⟨h', _⟩
            cases h'
        · rw [if_pos ⟨hd, hp⟩]
      · rw [if_neg hp, if_neg (fun h' => hp h'.2)]
    have s1 := steps_mkdir h0 [] (reachable_inside h0 hr [] (by simp)) rfl
    rw [List.append_nil] at s1
    have s2 := s1.bind (k := fun t => t.mkdirP (r ++ ["lib".toList])) fun _ t1 h1 =>
      steps_mkdir h1 ["lib".toList]
        (reachable_inside h1 hr _ (by simp [setAt])) (by simp [setAt])
    have s3 := s2.bind (k := fun t => t.mkdirP (r ++ ["lib".toList] ++ ["oclint".toList])) fun _ t1 h1 => by
      rw [List.append_assoc]
      exact steps_mkdir h1 ["lib".toList, "oclint".toList]
        (reachable_inside h1 hr _ (by simp [setAt])) (by simp [setAt])
    exact s3.iff (by simp [hfree])
  · refine Or.inr ⟨?_, hfree⟩
    rw [not_or] at hfree
    have h1 : t.rmF r = t := by
      unfold FileTree.rmF
      rw [if_neg (fun h' => hfree.2 ((isDir_iff t r).1 h'))]
    have h2 : t.mkdirP r = none := by
      unfold FileTree.mkdirP
      rw [if_neg (fun h' => hfree.2 ((isDir_iff t r).1 h')), makedirs_taken hfree.1]
    rw [h1, h2]
    rfl

theorem setAt_setAt (x : Place) (i j : Item) (f : Place → Option Item) :
    setAt x i (setAt x j f) = setAt x i f := by
  funext p
  unfold setAt
  by_cases h : p = x <;> simp [h]

theorem not_release_of {h : BundleHost} {p : Place} (n : Str) (rest : Place) (hp : p = n :: rest)
    (hn : n ≠ "build".toList) : ¬ releaseDirectory h <+: h.root ++ p := by
  unfold releaseDirectory
  rw [List.prefix_append_right_inj, hp, List.cons_prefix_cons]
  exact fun h' => hn h'.1.symm

theorem not_release_build {h : BundleHost} {p : Place} (n : Str) (rest : Place)
    (hp : p = "build".toList :: n :: rest) (hn : n ≠ "oclint-release".toList) :
    ApartPlaces (releaseDirectory h) (h.root ++ p) := by
  unfold releaseDirectory ApartPlaces
  rw [List.prefix_append_right_inj, List.prefix_append_right_inj, hp, List.cons_prefix_cons,
    List.cons_prefix_cons, List.cons_prefix_cons, List.cons_prefix_cons]
  exact ⟨fun h' => hn h'.2.1.symm, fun h' => hn h'.2.1⟩

theorem llvmLicense_item {h : BundleHost} {a : BundleArgs} {t t0 : FileTree} {f : Place → Option Item}
    (ha : ApartFromRelease h a) (ht : Holds t0 (releaseDirectory h) f t) :
    t.item (llvmLicense h a t) = llvmLicenseItem h a t0 := by
  have h1 := ht.outside ha.license.1
  have h2 := ht.outside (not_release_of (h := h) "llvm".toList ["LICENSE.TXT".toList] rfl (by decide))
  unfold llvmLicense llvmLicenseItem
  rw [h1]
  cases hl : t0.item (a.llvmRoot ++ ["LICENSE.TXT".toList]) with
  | none =>
    rw [if_neg (by simp), h2]
    rfl
  | some i =>
    rw [if_pos (by simp), h1, hl]
    rfl

theorem steps_licenses {h : BundleHost} {a : BundleArgs} {t t0 : FileTree} (ha : ApartFromRelease h a)
    (ht : Holds t0 (releaseDirectory h) emptyRelease t) :
    Steps t0 (releaseDirectory h) (installLicenses h a t)
      ((∃ text, t0.item (h.root ++ ["LICENSE".toList]) = some (.file text)) ∧
        (llvmLicenseItem h a t0 = none ∨ ∃ text, llvmLicenseItem h a t0 = some (.file text)))
      (setAt ["LICENSE".toList] (.file (licenseText h a t0)) emptyRelease) := by
  have hl := not_release_of (h := h) "LICENSE".toList [] rfl (by decide)
  unfold installLicenses
  rw [releasePlace_eq]
  have s1 := steps_write ht [] "LICENSE".toList [] (by simp [emptyRelease, setAt])
  rw [List.append_nil] at s1
  rcases s1 with ⟨t1, e1, -, h1⟩ | ⟨-, h1⟩
  · rw [e1]
    simp only [Option.bind_some]
    rw [h1.outside hl]
    have e2 := llvmLicense_item ha h1
    have hw := fun text => steps_write h1 [] "LICENSE".toList text (by simp [emptyRelease, setAt])
    simp only [List.append_nil, setAt_setAt, List.nil_append] at hw
    have hw : ∀ text, ∃ t', t1.write (releaseDirectory h) "LICENSE".toList text = some t' ∧
        Holds t0 (releaseDirectory h) (setAt ["LICENSE".toList] (.file text) emptyRelease) t' := by
      intro text
      rcases hw text with ⟨t', w1, -, w2⟩ | ⟨-, w2⟩
      · exact ⟨t', w1, w2⟩
      · exact absurd (by simp [setAt]) w2
    unfold llvmLicenseText licenseText
    rw [e2]
    cases hi : t0.item (h.root ++ ["LICENSE".toList]) with
    | none => exact Or.inr ⟨rfl, by simp⟩
    | some i =>
      cases i with
      | dir => exact Or.inr ⟨rfl, by simp⟩
      | link _ => exact Or.inr ⟨rfl, by simp⟩
      | file text =>
        cases hm : llvmLicenseItem h a t0 with
        | none =>
          obtain ⟨t', w1, w2⟩ := hw (text ++ [])
          exact Or.inl ⟨t', w1, by simp, w2⟩
        | some i =>
          cases i with
          | dir => exact Or.inr ⟨rfl, by simp⟩
          | link _ => exact Or.inr ⟨rfl, by simp⟩
          | file more =>
            obtain ⟨t', w1, w2⟩ := hw (text ++ ('\n' :: ((pyLines more).take 44).flatten))
            exact Or.inl ⟨t', w1, by simp, w2⟩
  · exact absurd (by simp [emptyRelease, setAt]) h1

/-- Links to the same program. -/
def linksAt (d : Place) (names : List Str) (target : Str) (f : Place → Option Item) : Place → Option Item :=
  fun p => if ∃ name ∈ names, p = d ++ [name] then some (.link target) else f p

theorem steps_links {t0 : FileTree} {r : Place} (d : Place) (target : Str) (names : List Str)
    (hn : names.Nodup) {f : Place → Option Item} {t : FileTree} (h : Holds t0 r f t)
    (hd : f d = some .dir) :
    Steps t0 r (makeLinks (r ++ d) (names.map fun n => (n, target)) t)
      (∀ n ∈ names, f (d ++ [n]) = none) (linksAt d names target f) := by
  induction names generalizing f t with
  | nil =>
    refine Or.inl ⟨t, rfl, by simp, ?_⟩
    have : linksAt d [] target f = f := by
      funext p
      simp [linksAt]
    rw [this]
    exact h
  | cons n ns ih =>
    rw [List.nodup_cons] at hn
    rw [List.map_cons]
    unfold makeLinks
    have s1 := (steps_link h d n target hd).bind
      (k := makeLinks (r ++ d) (ns.map fun n => (n, target))) fun _ t1 h1 =>
      ih hn.2 h1 (by
        unfold setAt
        rw [if_neg (by simp)]
        exact hd)
    have hf : linksAt d ns target (setAt (d ++ [n]) (.link target) f) = linksAt d (n :: ns) target f := by
      funext p
      unfold linksAt setAt
      by_cases h1 : ∃ name ∈ ns, p = d ++ [name]
      · obtain ⟨m, h2, h3⟩ := h1
        rw [if_pos ⟨m, h2, h3⟩, if_pos ⟨m, List.mem_cons_of_mem _ h2, h3⟩]
      · rw [if_neg h1]
        by_cases h2 : p = d ++ [n]
        · rw [if_pos h2, if_pos ⟨n, List.mem_cons_self, h2⟩]
        · rw [if_neg h2, if_neg]
          rintro ⟨m, h3, h4⟩
          rcases List.mem_cons.1 h3 with rfl | h5
          · exact h2 h4
          · exact h1 ⟨m, h5, h4⟩
    rw [hf] at s1
    refine s1.iff ?_
    constructor
    · rintro ⟨h1, h2⟩ m hm
      rcases List.mem_cons.1 hm with rfl | hm'
      · exact h1
      · have := h2 m hm'
        unfold setAt at this
        rw [if_neg] at this
        · exact this
        · simp only [List.append_cancel_left_eq, List.cons.injEq, and_true]
          rintro rfl
          exact hn.1 hm'
    · intro h1
      refine ⟨h1 n List.mem_cons_self, fun m hm => ?_⟩
      unfold setAt
      rw [if_neg]
      · exact h1 m (List.mem_cons_of_mem _ hm)
      · simp only [List.append_cancel_left_eq, List.cons.injEq, and_true]
        rintro rfl
        exact hn.1 hm

theorem bundleLinks_eq (h : BundleHost) (a : BundleArgs) :
    bundleLinks h.commit a.release = (programLinks h a).map fun n => (n, "oclint-26.02".toList) := by
  have e1 : "oclint-".toList ++ oclintVersion = "oclint-26.02".toList := by decide +kernel
  have e2 : "oclint-".toList ++ oclintDevVersion h.commit = "oclint-26.02.dev.".toList ++ h.commit := by
    unfold oclintDevVersion
    have : "oclint-".toList ++ (oclintVersion ++ ".dev.".toList) = "oclint-26.02.dev.".toList := by
      decide +kernel
    rw [← List.append_assoc, this]
  unfold bundleLinks bundleLink bundleDevLink programLinks
  rw [e1, e2]
  cases a.release <;> rfl

theorem programLinks_nodup (h : BundleHost) (a : BundleArgs) : (programLinks h a).Nodup := by
  unfold programLinks
  have hne : "oclint".toList ≠ "oclint-26.02.dev.".toList ++ h.commit := by
    intro h'
    have := congrArg List.length h'
    rw [List.length_append] at this
    have e1 : "oclint".toList.length = 6 := by decide +kernel
    have e2 : "oclint-26.02.dev.".toList.length = 17 := by decide +kernel
    omega
  cases a.release
  · simp only [Bool.false_eq_true, if_false, List.nodup_cons, List.mem_cons, List.not_mem_nil, or_false,
      not_false_iff, List.nodup_nil, and_true]
    exact hne
  · simp

/-- A program of another repository, if it is there. -/
def helperAt (h : BundleHost) (t0 : FileTree) (name : Str) (f : Place → Option Item) : Place → Option Item :=
  match helperText h t0 name with
  | some text => setAt ["bin".toList, name] (.file text) f
  | none => f

theorem steps_helper {h : BundleHost} {t t0 : FileTree} {f : Place → Option Item} (name : Str)
    (hname : name ≠ "build".toList) (ht : Holds t0 (releaseDirectory h) f t)
    (hbin : f ["bin".toList] = some .dir) :
    Steps t0 (releaseDirectory h) (installHelper h name t)
      (helperText h t0 name ≠ none → f ["bin".toList, name] ≠ some .dir) (helperAt h t0 name f) := by
  have ho := ht.outside (not_release_of (h := h) name [name] rfl hname)
  unfold installHelper FileTree.isFile FileTree.copyFile helperAt helperText binPlace
  rw [ho, releasePlace_eq]
  have hskip : Steps t0 (releaseDirectory h) (some t)
      ((none : Option Str) ≠ none → f ["bin".toList, name] ≠ some .dir) f :=
    Or.inl ⟨t, rfl, fun h' => absurd rfl h', ht⟩
  cases hi : t0.item (h.root ++ [name, name]) with
  | none => exact hskip
  | some i =>
    cases i with
    | dir => exact hskip
    | link _ => exact hskip
    | file text =>
      refine (steps_write ht ["bin".toList] name text hbin).iff ?_
      simp

theorem helperAt_other (h : BundleHost) (t0 : FileTree) (name : Str) (f : Place → Option Item) {p : Place}
    (hp : p ≠ ["bin".toList, name]) : helperAt h t0 name f p = f p := by
  unfold helperAt
  cases helperText h t0 name with
  | none => rfl
  | some text => exact if_neg hp

theorem helperAt_self (h : BundleHost) (t0 : FileTree) (name : Str) (f : Place → Option Item) :
    helperAt h t0 name f ["bin".toList, name] =
      match helperText h t0 name with
      | some text => some (.file text)
      | none => f ["bin".toList, name] := by
  unfold helperAt
  cases helperText h t0 name with
  | none => rfl
  | some text => exact if_pos rfl

/-- The release with its programs. -/
def withPrograms (h : BundleHost) (a : BundleArgs) (t : FileTree) : Place → Option Item :=
  linksAt ["bin".toList] (programLinks h a) "oclint-26.02".toList
    (graftAt ["bin".toList]
      (fun y => t.item (h.root ++ ["build".toList, "oclint-driver".toList, "bin".toList] ++ y))
      (setAt ["LICENSE".toList] (.file (licenseText h a t)) emptyRelease))

/-- The release with its rules. -/
def withRules (h : BundleHost) (a : BundleArgs) (t : FileTree) : Place → Option Item :=
  graftAt ["lib".toList, "oclint".toList, "rules".toList]
    (fun y => t.item (h.root ++ ["build".toList, "oclint-rules".toList, "rules.dl".toList] ++ y))
    (withPrograms h a t)

/-- The release with its reporters. -/
def withReporters (h : BundleHost) (a : BundleArgs) (t : FileTree) : Place → Option Item :=
  graftAt ["lib".toList, "oclint".toList, "reporters".toList]
    (fun y => t.item (h.root ++ ["build".toList, "oclint-reporters".toList, "reporters.dl".toList] ++ y))
    (withRules h a t)

/-- The release with the headers of the compiler. -/
def withHeaders (h : BundleHost) (a : BundleArgs) (t : FileTree) : Place → Option Item :=
  graftAt ["lib".toList, "clang".toList]
    (fun y => t.item (a.llvmRoot ++ ["lib".toList, "clang".toList] ++ y)) (withReporters h a t)

/-- The release with the first program of another repository. -/
def withDatabase (h : BundleHost) (a : BundleArgs) (t : FileTree) : Place → Option Item :=
  helperAt h t "oclint-json-compilation-database".toList (withHeaders h a t)

/-- The release with the second program of another repository. -/
def withXcodebuild (h : BundleHost) (a : BundleArgs) (t : FileTree) : Place → Option Item :=
  helperAt h t "oclint-xcodebuild".toList (withDatabase h a t)

/-- The release with the headers of C++. -/
def withCpp (h : BundleHost) (a : BundleArgs) (t : FileTree) : Place → Option Item :=
  graftAt ["include".toList, "c++".toList]
    (fun y => t.item (a.llvmRoot ++ ["include".toList, "c++".toList] ++ y))
    (setAt ["include".toList] .dir (withXcodebuild h a t))

theorem licensed_nil (text : Str) :
    setAt ["LICENSE".toList] (.file text) emptyRelease [] = some .dir := by
  simp [setAt, emptyRelease]

theorem licensed_bin (text : Str) (y : Place) :
    setAt ["LICENSE".toList] (.file text) emptyRelease (["bin".toList] ++ y) = none := by
  simp [setAt, emptyRelease]

theorem prefix_single {n : Str} {y : Place} (hy : y ∈ [n].inits) (hne : y ≠ [n]) : y = [] := by
  simp only [List.inits, List.map_cons, List.map_nil, List.mem_cons,
    List.not_mem_nil, or_false] at hy
  rcases hy with rfl | rfl
  · rfl
  · exact absurd rfl hne

theorem prefix_pair {m n : Str} {y : Place} (hy : y ∈ [m, n].inits) (hne : y ≠ [m, n]) :
    y = [] ∨ y = [m] := by
  simp only [List.inits, List.map_cons, List.map_nil, List.mem_cons,
    List.not_mem_nil, or_false] at hy
  rcases hy with rfl | rfl | rfl
  · exact Or.inl rfl
  · exact Or.inr rfl
  · exact absurd rfl hne

theorem prefix_triple {l m n : Str} {y : Place} (hy : y ∈ [l, m, n].inits) (hne : y ≠ [l, m, n]) :
    y = [] ∨ y = [l] ∨ y = [l, m] := by
  simp only [List.inits, List.map_cons, List.map_nil, List.mem_cons,
    List.not_mem_nil, or_false] at hy
  rcases hy with rfl | rfl | rfl | rfl
  · exact Or.inl rfl
  · exact Or.inr (Or.inl rfl)
  · exact Or.inr (Or.inr rfl)
  · exact absurd rfl hne

theorem steps_programs {h : BundleHost} {a : BundleArgs} {t t0 : FileTree} 
    (hr : Reachable t0 (releaseDirectory h))
    (ht : Holds t0 (releaseDirectory h)
      (setAt ["LICENSE".toList] (.file (licenseText h a t0)) emptyRelease) t) :
    Steps t0 (releaseDirectory h) (installBinary h a t)
      (t0.item (h.root ++ ["build".toList, "oclint-driver".toList, "bin".toList]) = some .dir ∧
        ∀ n ∈ programLinks h a,
          t0.item (h.root ++ ["build".toList, "oclint-driver".toList, "bin".toList, n]) = none)
      (withPrograms h a t0) := by
  have hp : buildPlace h "oclint-driver".toList ++ ["bin".toList] =
      h.root ++ ["build".toList, "oclint-driver".toList, "bin".toList] := by
    simp [buildPlace]
  unfold installBinary binPlace
  rw [releasePlace_eq, hp, bundleLinks_eq]
  have ha : ApartPlaces (releaseDirectory h)
      (h.root ++ ["build".toList, "oclint-driver".toList, "bin".toList]) :=
    not_release_build "oclint-driver".toList ["bin".toList] rfl (by decide)
  have hn := fun y => licensed_bin (licenseText h a t0) y
  have hd : ∀ y ∈ ["bin".toList].inits, y ≠ ["bin".toList] →
      setAt ["LICENSE".toList] (.file (licenseText h a t0)) emptyRelease y = some .dir := by
    intro y hy hne
    rw [prefix_single hy hne]
    exact licensed_nil _
  have s1 := steps_copyTree ht (h.root ++ ["build".toList, "oclint-driver".toList, "bin".toList])
    ["bin".toList] ha (reachable_inside ht hr ["bin".toList] hd) hn
  have s2 := s1.bind (k := makeLinks (releaseDirectory h ++ ["bin".toList])
      ((programLinks h a).map fun n => (n, "oclint-26.02".toList)))
    fun hc t1 h1 => steps_links ["bin".toList] "oclint-26.02".toList (programLinks h a)
      (programLinks_nodup h a) h1 (by
        unfold graftAt
        rw [if_pos List.prefix_rfl, List.drop_length]
        simp only [List.append_nil]
        exact hc)
  refine s2.iff (and_congr_right fun _ => forall_congr' fun n => imp_congr_right fun _ => ?_)
  unfold graftAt
  rw [if_pos (List.prefix_append _ _), List.drop_left]
  simp only [List.append_assoc, List.cons_append, List.nil_append]

theorem withPrograms_lib (h : BundleHost) (a : BundleArgs) (t : FileTree) :
    withPrograms h a t [] = some .dir ∧ withPrograms h a t ["lib".toList] = some .dir ∧
    withPrograms h a t ["lib".toList, "oclint".toList] = some .dir := by
  simp [withPrograms, linksAt, graftAt, setAt, emptyRelease]

theorem withPrograms_none (h : BundleHost) (a : BundleArgs) (t : FileTree) (n : Str) (y : Place)
    (hn : n ≠ "bin".toList) (hl : n :: y ≠ ["LICENSE".toList]) (h1 : n :: y ≠ ["lib".toList])
    (h2 : n :: y ≠ ["lib".toList, "oclint".toList]) : withPrograms h a t (n :: y) = none := by
  unfold withPrograms linksAt graftAt setAt emptyRelease
  rw [if_neg, if_neg, if_neg hl]
  · unfold setAt
    rw [if_neg h2, if_neg h1]
    rfl
  · rw [List.cons_prefix_cons]
    exact fun h' => hn h'.1.symm
  · rintro ⟨m, -, h'⟩
    exact hn (List.cons.inj h').1

theorem graftAt_other (x : Place) (g f : Place → Option Item) {p : Place} (hp : ¬ x <+: p) :
    graftAt x g f p = f p := if_neg hp

theorem not_prefix_head {m n : Str} (hne : m ≠ n) (x p : Place) : ¬ m :: x <+: n :: p := by
  rw [List.cons_prefix_cons]
  exact fun h' => hne h'.1

theorem not_prefix_second {l l' m n : Str} (hne : m ≠ n) (x p : Place) : ¬ l :: m :: x <+: l' :: n :: p := by
  rw [List.cons_prefix_cons, List.cons_prefix_cons]
  exact fun h' => hne h'.2.1

theorem not_prefix_third {k k' l l' m n : Str} (hne : m ≠ n) (x p : Place) :
    ¬ k :: l :: m :: x <+: k' :: l' :: n :: p := by
  rw [List.cons_prefix_cons, List.cons_prefix_cons, List.cons_prefix_cons]
  exact fun h' => hne h'.2.2.1

theorem not_prefix_short {x p : Place} (hl : p.length < x.length) : ¬ x <+: p :=
  fun h' => absurd h'.length_le (by omega)

theorem steps_rules {h : BundleHost} {a : BundleArgs} {t t0 : FileTree}
    (hr : Reachable t0 (releaseDirectory h)) (ht : Holds t0 (releaseDirectory h) (withPrograms h a t0) t) :
    Steps t0 (releaseDirectory h) (installRules h t)
      (t0.item (h.root ++ ["build".toList, "oclint-rules".toList, "rules.dl".toList]) = some .dir)
      (withRules h a t0) := by
  have hp : buildPlace h "oclint-rules".toList ++ ["rules.dl".toList] =
      h.root ++ ["build".toList, "oclint-rules".toList, "rules.dl".toList] := by
    simp [buildPlace]
  have hq : releaseDirectory h ++ ["lib".toList] ++ ["oclint".toList] ++ ["rules".toList] =
      releaseDirectory h ++ ["lib".toList, "oclint".toList, "rules".toList] := by simp
  have ha : ApartPlaces (releaseDirectory h)
      (h.root ++ ["build".toList, "oclint-rules".toList, "rules.dl".toList]) :=
    not_release_build "oclint-rules".toList ["rules.dl".toList] rfl (by decide)
  unfold installRules libOclintPlace libPlace
  rw [releasePlace_eq, hp, hq]
  obtain ⟨d0, d1, d2⟩ := withPrograms_lib h a t0
  refine steps_copyTree ht _ ["lib".toList, "oclint".toList, "rules".toList] ha
    (reachable_inside ht hr _ ?_) ?_
  · intro y hy hne
    rcases prefix_triple hy hne with rfl | rfl | rfl
    · exact d0
    · exact d1
    · exact d2
  · intro y
    exact withPrograms_none h a t0 _ _ (by decide) (by simp) (by simp) (by simp)

theorem withRules_lib (h : BundleHost) (a : BundleArgs) (t : FileTree) :
    withRules h a t [] = some .dir ∧ withRules h a t ["lib".toList] = some .dir ∧
    withRules h a t ["lib".toList, "oclint".toList] = some .dir := by
  obtain ⟨d0, d1, d2⟩ := withPrograms_lib h a t
  unfold withRules
  rw [graftAt_other _ _ _ (not_prefix_short (by simp)), graftAt_other _ _ _ (not_prefix_short (by simp)),
    graftAt_other _ _ _ (not_prefix_short (by simp))]
  exact ⟨d0, d1, d2⟩

theorem steps_reporters {h : BundleHost} {a : BundleArgs} {t t0 : FileTree}
    (hr : Reachable t0 (releaseDirectory h)) (ht : Holds t0 (releaseDirectory h) (withRules h a t0) t) :
    Steps t0 (releaseDirectory h) (installReporters h t)
      (t0.item (h.root ++ ["build".toList, "oclint-reporters".toList, "reporters.dl".toList]) = some .dir)
      (withReporters h a t0) := by
  have hp : buildPlace h "oclint-reporters".toList ++ ["reporters.dl".toList] =
      h.root ++ ["build".toList, "oclint-reporters".toList, "reporters.dl".toList] := by
    simp [buildPlace]
  have hq : releaseDirectory h ++ ["lib".toList] ++ ["oclint".toList] ++ ["reporters".toList] =
      releaseDirectory h ++ ["lib".toList, "oclint".toList, "reporters".toList] := by simp
  have ha : ApartPlaces (releaseDirectory h)
      (h.root ++ ["build".toList, "oclint-reporters".toList, "reporters.dl".toList]) :=
    not_release_build "oclint-reporters".toList ["reporters.dl".toList] rfl (by decide)
  unfold installReporters libOclintPlace libPlace
  rw [releasePlace_eq, hp, hq]
  obtain ⟨d0, d1, d2⟩ := withRules_lib h a t0
  refine steps_copyTree ht _ ["lib".toList, "oclint".toList, "reporters".toList] ha
    (reachable_inside ht hr _ ?_) ?_
  · intro y hy hne
    rcases prefix_triple hy hne with rfl | rfl | rfl
    · exact d0
    · exact d1
    · exact d2
  · intro y
    simp only [List.cons_append, List.nil_append]
    unfold withRules
    rw [graftAt_other _ _ _ (not_prefix_third (by decide) _ _)]
    exact withPrograms_none h a t0 _ _ (by decide) (by simp) (by simp) (by simp)

theorem withReporters_lib (h : BundleHost) (a : BundleArgs) (t : FileTree) :
    withReporters h a t [] = some .dir ∧ withReporters h a t ["lib".toList] = some .dir ∧
    withReporters h a t ["lib".toList, "oclint".toList] = some .dir := by
  obtain ⟨d0, d1, d2⟩ := withRules_lib h a t
  unfold withReporters
  rw [graftAt_other _ _ _ (not_prefix_short (by simp)), graftAt_other _ _ _ (not_prefix_short (by simp)),
    graftAt_other _ _ _ (not_prefix_short (by simp))]
  exact ⟨d0, d1, d2⟩

theorem steps_headers {h : BundleHost} {a : BundleArgs} {t t0 : FileTree} (ha : ApartFromRelease h a)
    (hr : Reachable t0 (releaseDirectory h)) (ht : Holds t0 (releaseDirectory h) (withReporters h a t0) t) :
    Steps t0 (releaseDirectory h) (installCompilerHeaders h a t)
      (t0.item (a.llvmRoot ++ ["lib".toList, "clang".toList]) = some .dir) (withHeaders h a t0) := by
  have hq : releaseDirectory h ++ ["lib".toList] ++ ["clang".toList] =
      releaseDirectory h ++ ["lib".toList, "clang".toList] := by simp
  unfold installCompilerHeaders libPlace
  rw [releasePlace_eq, hq]
  obtain ⟨d0, d1, d2⟩ := withReporters_lib h a t0
  refine steps_copyTree ht _ ["lib".toList, "clang".toList] ha.headers
    (reachable_inside ht hr _ ?_) ?_
  · intro y hy hne
    rcases prefix_pair hy hne with rfl | rfl
    · exact d0
    · exact d1
  · intro y
    simp only [List.cons_append, List.nil_append]
    unfold withReporters withRules
    rw [graftAt_other _ _ _ (not_prefix_second (by decide) _ _),
      graftAt_other _ _ _ (not_prefix_second (by decide) _ _)]
    exact withPrograms_none h a t0 _ _ (by decide) (by simp) (by simp) (by simp)

theorem withPrograms_bin (h : BundleHost) (a : BundleArgs) (t : FileTree) (y : Place) :
    withPrograms h a t ("bin".toList :: y) =
      if ∃ name ∈ programLinks h a, y = [name] then some (.link "oclint-26.02".toList)
      else t.item (h.root ++ ["build".toList, "oclint-driver".toList, "bin".toList] ++ y) := by
  unfold withPrograms linksAt
  have hiff : (∃ name ∈ programLinks h a, "bin".toList :: y = ["bin".toList] ++ [name]) ↔
      ∃ name ∈ programLinks h a, y = [name] := by
    simp
  have hg : graftAt ["bin".toList]
      (fun y => t.item (h.root ++ ["build".toList, "oclint-driver".toList, "bin".toList] ++ y))
      (setAt ["LICENSE".toList] (.file (licenseText h a t)) emptyRelease) ("bin".toList :: y) =
      t.item (h.root ++ ["build".toList, "oclint-driver".toList, "bin".toList] ++ y) := by
    unfold graftAt
    rw [if_pos (by rw [List.cons_prefix_cons]; exact ⟨rfl, List.nil_prefix⟩)]
    rfl
  rw [hg]
  by_cases hx : ∃ name ∈ programLinks h a, y = [name]
  · rw [if_pos hx, if_pos (hiff.2 hx)]
  · rw [if_neg hx, if_neg (fun h' => hx (hiff.1 h'))]

theorem withHeaders_bin (h : BundleHost) (a : BundleArgs) (t : FileTree) (y : Place) :
    withHeaders h a t ("bin".toList :: y) = withPrograms h a t ("bin".toList :: y) := by
  unfold withHeaders withReporters withRules
  rw [graftAt_other _ _ _ (not_prefix_head (by decide) _ _),
    graftAt_other _ _ _ (not_prefix_head (by decide) _ _),
    graftAt_other _ _ _ (not_prefix_head (by decide) _ _)]

theorem withPrograms_bin_dir (h : BundleHost) (a : BundleArgs) (t : FileTree)
    (hd : t.item (h.root ++ ["build".toList, "oclint-driver".toList, "bin".toList]) = some .dir) :
    withPrograms h a t ["bin".toList] = some .dir := by
  rw [withPrograms_bin, if_neg (by simp), List.append_nil]
  exact hd

theorem not_programLinks (h : BundleHost) (a : BundleArgs) (name : Str) (h1 : name ≠ "oclint".toList)
    (h2 : ¬ "oclint-26.02.dev.".toList <+: name) : name ∉ programLinks h a := by
  unfold programLinks
  rw [List.mem_cons]
  rintro (h' | h')
  · exact h1 h'
  · by_cases hr : a.release = true
    · rw [if_pos hr] at h'
      cases h'
    · rw [if_neg hr, List.mem_singleton] at h'
      exact h2 ⟨_, h'.symm⟩

theorem database_not_link (h : BundleHost) (a : BundleArgs) :
    "oclint-json-compilation-database".toList ∉ programLinks h a :=
  not_programLinks h a _ (by decide +kernel) (by decide +kernel)

theorem xcodebuild_not_link (h : BundleHost) (a : BundleArgs) :
    "oclint-xcodebuild".toList ∉ programLinks h a :=
  not_programLinks h a _ (by decide +kernel) (by decide +kernel)

theorem withPrograms_helper (h : BundleHost) (a : BundleArgs) (t : FileTree) (name : Str)
    (hn : name ∉ programLinks h a) :
    withPrograms h a t ["bin".toList, name] =
      t.item (h.root ++ ["build".toList, "oclint-driver".toList, "bin".toList, name]) := by
  rw [withPrograms_bin, if_neg, List.append_assoc]
  · rfl
  · rintro ⟨m, hm, he⟩
    cases he
    exact hn hm

theorem steps_database {h : BundleHost} {a : BundleArgs} {t t0 : FileTree}
    (hd : t0.item (h.root ++ ["build".toList, "oclint-driver".toList, "bin".toList]) = some .dir)
    (ht : Holds t0 (releaseDirectory h) (withHeaders h a t0) t) :
    Steps t0 (releaseDirectory h) (installHelper h "oclint-json-compilation-database".toList t)
      (helperText h t0 "oclint-json-compilation-database".toList ≠ none →
        t0.item (h.root ++ ["build".toList, "oclint-driver".toList, "bin".toList,
          "oclint-json-compilation-database".toList]) ≠ some .dir) (withDatabase h a t0) := by
  have s := steps_helper "oclint-json-compilation-database".toList (by decide +kernel) ht (by
    rw [withHeaders_bin]
    exact withPrograms_bin_dir h a t0 hd)
  rw [withHeaders_bin, withPrograms_helper h a t0 _ (database_not_link h a)] at s
  exact s

theorem steps_xcodebuild {h : BundleHost} {a : BundleArgs} {t t0 : FileTree}
    (hd : t0.item (h.root ++ ["build".toList, "oclint-driver".toList, "bin".toList]) = some .dir)
    (ht : Holds t0 (releaseDirectory h) (withDatabase h a t0) t) :
    Steps t0 (releaseDirectory h) (installHelper h "oclint-xcodebuild".toList t)
      (helperText h t0 "oclint-xcodebuild".toList ≠ none →
        t0.item (h.root ++ ["build".toList, "oclint-driver".toList, "bin".toList,
          "oclint-xcodebuild".toList]) ≠ some .dir) (withXcodebuild h a t0) := by
  have hne : ["bin".toList, "oclint-xcodebuild".toList] ≠
      ["bin".toList, "oclint-json-compilation-database".toList] := by decide +kernel
  have s := steps_helper "oclint-xcodebuild".toList (by decide +kernel) ht (by
    unfold withDatabase
    rw [helperAt_other h t0 _ _ (by simp), withHeaders_bin]
    exact withPrograms_bin_dir h a t0 hd)
  have e : withDatabase h a t0 ["bin".toList, "oclint-xcodebuild".toList] =
      t0.item (h.root ++ ["build".toList, "oclint-driver".toList, "bin".toList,
          "oclint-xcodebuild".toList]) := by
    unfold withDatabase
    rw [helperAt_other h t0 _ _ hne, withHeaders_bin,
      withPrograms_helper h a t0 _ (xcodebuild_not_link h a)]
  rw [e] at s
  exact s

theorem withXcodebuild_head (h : BundleHost) (a : BundleArgs) (t : FileTree) {p : Place}
    (hp : ∀ y, p ≠ "bin".toList :: y) (hl : ∀ y, p ≠ "lib".toList :: y) :
    withXcodebuild h a t p = withPrograms h a t p := by
  have hpre : ∀ x, ¬ "lib".toList :: x <+: p := by
    rintro x ⟨y, h'⟩
    exact hl _ h'.symm
  unfold withXcodebuild withDatabase withHeaders withReporters withRules
  rw [helperAt_other h t _ _ (hp _), helperAt_other h t _ _ (hp _), graftAt_other _ _ _ (hpre _),
    graftAt_other _ _ _ (hpre _), graftAt_other _ _ _ (hpre _)]

theorem steps_cpp {h : BundleHost} {a : BundleArgs} {t t0 : FileTree} (ha : ApartFromRelease h a)
    (hr : Reachable t0 (releaseDirectory h)) (harm : h.arm = false)
    (ht : Holds t0 (releaseDirectory h) (withXcodebuild h a t0) t) :
    Steps t0 (releaseDirectory h) (installCppHeaders h a t)
      (t0.item (a.llvmRoot ++ ["include".toList, "c++".toList]) = some .dir) (withCpp h a t0) := by
  unfold installCppHeaders
  rw [releasePlace_eq, harm]
  simp only [Bool.false_eq_true, if_false]
  have e0 : withXcodebuild h a t0 [] = some .dir := by
    rw [withXcodebuild_head h a t0 (fun _ => by simp) (fun _ => by simp)]
    exact (withPrograms_lib h a t0).1
  have e1 : ∀ y, withXcodebuild h a t0 ("include".toList :: y) = none := by
    intro y
    have n1 : "include".toList ≠ "bin".toList := by decide
    have n2 : "include".toList ≠ "lib".toList := by decide
    have n3 : "include".toList ≠ "LICENSE".toList := by decide
    rw [withXcodebuild_head h a t0 (fun _ h' => n1 (List.cons.inj h').1) (fun _ h' => n2 (List.cons.inj h').1)]
    exact withPrograms_none h a t0 _ _ n1 (fun h' => n3 (List.cons.inj h').1)
      (fun h' => n2 (List.cons.inj h').1) (fun h' => n2 (List.cons.inj h').1)
  have s1 := steps_mkdir ht ["include".toList] (reachable_inside ht hr _ (by
    intro y hy hne
    rw [prefix_single hy hne]
    exact e0)) (e1 [])
  refine (s1.bind fun _ t1 h1 => steps_copyTree h1 _ ["include".toList, "c++".toList] ha.cppHeaders
    (reachable_inside h1 hr _ ?_) ?_).iff (by simp)
  · intro y hy hne
    unfold setAt
    rcases prefix_pair hy hne with rfl | rfl
    · rw [if_neg (by simp)]
      exact e0
    · rw [if_pos rfl]
  · intro y
    unfold setAt
    rw [if_neg (by simp)]
    exact e1 _

end Oclint
