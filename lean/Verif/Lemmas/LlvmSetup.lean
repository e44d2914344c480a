import Mathlib.Data.List.Dedup
import Verif.Lemmas.BundleAgain
import Verif.Spec.LlvmSetup

/-!
# Taking things away from a disk
-/

namespace Oclint

open Spec

/-! ## Disks from which something was taken away -/

/-- Some places are gone, all others are as before. -/
structure Cut (t : FileTree) (g : Place → Prop) (t' : FileTree) : Prop where
  gone : ∀ p, g p → t'.item p = none
  kept : ∀ p, ¬ g p → t'.item p = t.item p
  tarballs : t'.tarballs = t.tarballs

/-- An operation that succeeds in just one case, and then takes some places away. -/
def Cuts (t : FileTree) (o : Option FileTree) (c : Prop) (gone : Place → Prop) : Prop :=
  (∃ t', o = some t' ∧ c ∧ Cut t gone t') ∨ (o = none ∧ ¬ c)

theorem Cut.refl {t : FileTree} {gone : Place → Prop} (h : ∀ p, gone p → t.item p = none) :
    Cut t gone t := ⟨h, fun _ _ => rfl, rfl⟩

theorem Cut.trans {t t1 t2 : FileTree} {g1 g2 : Place → Prop} (h1 : Cut t g1 t1) (h2 : Cut t1 g2 t2) :
    Cut t (fun p => g1 p ∨ g2 p) t2 := by
  refine ⟨fun p hp => ?_, fun p hp => ?_, h2.tarballs.trans h1.tarballs⟩
  · by_cases h : g2 p
    · exact h2.gone p h
    · rw [h2.kept p h]
      exact h1.gone p (hp.resolve_right h)
  · rw [h2.kept p fun h => hp (Or.inr h), h1.kept p fun h => hp (Or.inl h)]

theorem Cut.le {t t' : FileTree} {g g' : Place → Prop} (h : Cut t g t') (h1 : ∀ p, g p → g' p)
    (h2 : ∀ p, g' p → t.item p = none ∨ g p) : Cut t g' t' := by
  refine ⟨fun p hp => ?_, fun p hp => h.kept p fun h' => hp (h1 p h'), h.tarballs⟩
  by_cases hg : g p
  · exact h.gone p hg
  · rw [h.kept p hg]
    exact (h2 p hp).resolve_right hg

theorem Cut.still_none {t t' : FileTree} {g : Place → Prop} (h : Cut t g t') {p : Place} (hp : t.item p = none) :
    t'.item p = none := by
  by_cases hg : g p
  · exact h.gone p hg
  · rw [h.kept p hg, hp]

theorem Cuts.mono {t : FileTree} {o : Option FileTree} {c c' : Prop} {g g' : Place → Prop}
    (h : Cuts t o c g) (hc : c ↔ c') (h1 : ∀ p, g p → g' p) (h2 : ∀ p, g' p → t.item p = none ∨ g p) :
    Cuts t o c' g' := by
  rcases h with ⟨t', h, h3, h4⟩ | ⟨h, h3⟩
  · exact Or.inl ⟨t', h, hc.1 h3, h4.le h1 h2⟩
  · exact Or.inr ⟨h, fun h' => h3 (hc.2 h')⟩

theorem Cuts.bind {t : FileTree} {o : Option FileTree} {c c' : Prop} {g g' : Place → Prop}
    {k : FileTree → Option FileTree} (h : Cuts t o c g)
    (hk : c → ∀ t1, Cut t g t1 → Cuts t1 (k t1) c' g') :
    Cuts t (o.bind k) (c ∧ c') (fun p => g p ∨ g' p) := by
  rcases h with ⟨t1, rfl, hc, h1⟩ | ⟨rfl, hc⟩
  · rcases hk hc t1 h1 with ⟨t2, h2, h3, h4⟩ | ⟨h2, h3⟩
    · exact Or.inl ⟨t2, h2, ⟨hc, h3⟩, h1.trans h4⟩
    · exact Or.inr ⟨h2, fun h => h3 h.2⟩
  · exact Or.inr ⟨rfl, fun h => hc h.1⟩

theorem Cut.sound {t t' : FileTree} {g : Place → Prop} (h : Cut t g t') (hs : SoundTree t)
    (hg : ∀ q p, q <+: p → g q → t.item p ≠ none → g p) : SoundTree t' := by
  intro p q hq hne hp
  have hgp : ¬ g p := fun hgp => hp (h.gone p hgp)
  rw [h.kept p hgp] at hp
  have hgq : ¬ g q := fun hgq => hgp (hg q p hq hgq hp)
  rw [h.kept q hgq]
  exact hs p q hq hne hp

/-! ## The operations -/

theorem cuts_removeFile (t : FileTree) (p : Place) :
    Cuts t (t.removeFile p) (t.item p ≠ none ∧ t.item p ≠ some .dir) (fun q => q = p) := by
  have hcut : Cut t (fun q => q = p) { t with entries := t.entries.filter fun e => !decide (e.1 = p) } := by
    have hl : ∀ q, lookup (t.entries.filter fun e => !decide (e.1 = p)) q =
        if q = p then none else lookup t.entries q := by
      intro q
      rw [lookup_keep (fun x => !decide (x = p))]
      by_cases h : q = p <;> simp [h]
    refine ⟨fun q hq => ?_, fun q hq => ?_, rfl⟩
    · exact (hl q).trans (if_pos hq)
    · exact (hl q).trans (if_neg hq)
  unfold FileTree.removeFile
  cases h : t.item p with
  | none => exact Or.inr ⟨rfl, fun h' => h'.1 rfl⟩
  | some i =>
    cases i with
    | dir => exact Or.inr ⟨rfl, fun h' => h'.2 rfl⟩
    | file x => exact Or.inl ⟨_, rfl, ⟨by simp, by simp⟩, hcut⟩
    | link x => exact Or.inl ⟨_, rfl, ⟨by simp, by simp⟩, hcut⟩

theorem cuts_rmtree (t : FileTree) (d : Place) :
    Cuts t (t.rmtree d) (t.item d = some .dir) (fun q => d <+: q) := by
  unfold FileTree.rmtree
  by_cases h : t.item d = some .dir
  · rw [if_pos ((isDir_iff t d).2 h)]
    refine Or.inl ⟨_, rfl, h, ⟨fun q hq => ?_, fun q hq => ?_, rfl⟩⟩
    · exact (lookup_elsewhere d t.entries q).trans (if_pos hq)
    · exact (lookup_elsewhere d t.entries q).trans (if_neg hq)
  · rw [if_neg fun h' => h ((isDir_iff t d).1 h')]
    exact Or.inr ⟨rfl, h⟩

theorem cuts_rmtreeIfThere (t : FileTree) (d : Place)
    (hs : t.item d = none → ∀ q, d <+: q → t.item q = none) :
    Cuts t (rmtreeIfThere d t) (t.item d = none ∨ t.item d = some .dir) (fun q => d <+: q) := by
  unfold rmtreeIfThere
  by_cases h : t.item d = none
  · rw [if_pos h]
    exact Or.inl ⟨t, rfl, Or.inl h, Cut.refl (hs h)⟩
  · rw [if_neg h]
    exact (cuts_rmtree t d).mono ⟨Or.inr, fun h' => h'.resolve_left h⟩ (fun _ => id) (fun _ => Or.inr)

theorem cuts_inTurn (t0 : FileTree) (op : Str → FileTree → Option FileTree) (c : Str → Prop)
    (gone : Str → Place → Prop) (hd : ∀ n m p, gone n p → gone m p → n = m) :
    ∀ ns : List Str, ns.Nodup →
      (∀ n ∈ ns, ∀ t1 : FileTree, (∀ p, gone n p → t1.item p = t0.item p) → Cuts t1 (op n t1) (c n) (gone n)) →
      ∀ t : FileTree, (∀ n ∈ ns, ∀ p, gone n p → t.item p = t0.item p) →
        Cuts t (inTurn op ns t) (∀ n ∈ ns, c n) (fun p => ∃ n ∈ ns, gone n p) := by
  intro ns
  induction ns with
  | nil =>
    intro _ _ t _
    exact Or.inl ⟨t, rfl, by simp, Cut.refl (by simp)⟩
  | cons n ns ih =>
    intro hnd hop t ht
    have h1 := hop n List.mem_cons_self t (ht n List.mem_cons_self)
    have h2 := h1.bind (k := inTurn op ns) (c' := ∀ m ∈ ns, c m) (g' := fun p => ∃ m ∈ ns, gone m p) (by
      intro _ t1 hc1
      refine ih (List.nodup_cons.1 hnd).2 (fun m hm => hop m (List.mem_cons_of_mem _ hm)) t1 ?_
      intro m hm p hp
      rw [hc1.kept p fun hnp => (List.nodup_cons.1 hnd).1 (hd n m p hnp hp ▸ hm)]
      exact ht m (List.mem_cons_of_mem _ hm) p hp)
    refine h2.mono (by simp) ?_ ?_
    · rintro p (hp | ⟨m, hm, hp⟩)
      · exact ⟨n, List.mem_cons_self, hp⟩
      · exact ⟨m, List.mem_cons_of_mem _ hm, hp⟩
    · rintro p ⟨m, hm, hp⟩
      rcases List.mem_cons.1 hm with rfl | hm
      · exact Or.inr (Or.inl hp)
      · exact Or.inr (Or.inr ⟨m, hm, hp⟩)

/-! ## The names in a directory -/

theorem mem_names (t : FileTree) (d : Place) (n : Str) : n ∈ t.names d ↔ t.item (d ++ [n]) ≠ none := by
  unfold FileTree.names
  rw [List.mem_dedup, List.mem_filterMap]
  constructor
  · rintro ⟨e, _, he⟩
    split at he
    · rename_i hpre
      obtain ⟨x, hx⟩ := hpre
      rw [← hx, List.drop_left] at he
      split at he
      · split at he
        · cases he
        · cases he
          rename_i h
          exact h
      · cases he
    · cases he
  · intro h
    have : ∃ e ∈ t.entries, e.1 = d ++ [n] := by
      by_contra hno
      exact h ((lookup_none_iff _ _).2 fun e he hep => hno ⟨e, he, hep⟩)
    obtain ⟨e, he, hep⟩ := this
    refine ⟨e, he, ?_⟩
    rw [hep, if_pos (List.prefix_append _ _), List.drop_left]
    exact if_neg h

theorem tree_names_nodup (t : FileTree) (d : Place) : (t.names d).Nodup := List.nodup_dedup _

/-! ## Libraries of C++ -/

theorem cuts_removeMatching (t : FileTree) (lib : Place) (pre : Str) :
    Cuts t (removeMatching lib pre t) (∀ n, pre <+: n → t.item (lib ++ [n]) ≠ some .dir)
      (fun p => ∃ n, pre <+: n ∧ p = lib ++ [n]) := by
  have hmem : ∀ n, n ∈ (t.names lib).filter (fun n => decide (pre <+: n)) ↔
      t.item (lib ++ [n]) ≠ none ∧ pre <+: n := by
    intro n
    rw [List.mem_filter, mem_names]
    simp
  have h := cuts_inTurn t (fun n t => t.removeFile (lib ++ [n]))
    (fun n => t.item (lib ++ [n]) ≠ none ∧ t.item (lib ++ [n]) ≠ some .dir)
    (fun n p => p = lib ++ [n]) (by
      rintro n m p rfl h
      simpa using h)
    ((t.names lib).filter fun n => decide (pre <+: n)) ((tree_names_nodup t lib).filter _) (by
      intro n _ t1 h1
      have := cuts_removeFile t1 (lib ++ [n])
      rw [h1 (lib ++ [n]) rfl] at this
      exact this) t (fun _ _ _ _ => rfl)
  refine h.mono ?_ ?_ ?_
  · constructor
    · intro h n hn hdir
      exact (h n ((hmem n).2 ⟨by rw [hdir]; simp, hn⟩)).2 hdir
    · intro h n hn
      exact ⟨((hmem n).1 hn).1, h n ((hmem n).1 hn).2⟩
  · rintro p ⟨n, hn, rfl⟩
    exact ⟨n, ((hmem n).1 hn).2, rfl⟩
  · rintro p ⟨n, hn, rfl⟩
    by_cases hi : t.item (lib ++ [n]) = none
    · exact Or.inl hi
    · exact Or.inr ⟨n, (hmem n).2 ⟨hi, hn⟩, rfl⟩

theorem cuts_removeLibcxx (t : FileTree) (root : Place) :
    Cuts t (removeLibcxx root t) (∀ n, CppLibrary n → t.item (root ++ ["lib".toList, n]) ≠ some .dir)
      (fun p => ∃ n, CppLibrary n ∧ p = root ++ ["lib".toList, n]) := by
  have habi : "libc++".toList <+: "libc++abi".toList := by decide
  have hun : ¬ "libc++".toList <+: "libunwind".toList := by decide
  have hun' : ¬ "libunwind".toList <+: "libc++".toList := by decide
  have hlen : "libc++".toList.length ≤ "libunwind".toList.length := by decide
  have hassoc : ∀ n, root ++ ["lib".toList] ++ [n] = root ++ ["lib".toList, n] := by simp
  unfold removeLibcxx CppLibrary
  generalize "libc++".toList = cpp at *
  generalize "libc++abi".toList = abi at *
  generalize "libunwind".toList = unw at *
  generalize "lib".toList = lib at *
  have h1 := cuts_removeMatching t (root ++ [lib]) cpp
  have h2 := h1.bind (k := removeMatching (root ++ [lib]) abi) (c' := True)
    (g' := fun p => ∃ n, abi <+: n ∧ p = root ++ [lib] ++ [n]) (by
      intro _ t1 hc
      refine (cuts_removeMatching t1 (root ++ [lib]) abi).mono ⟨fun _ => trivial, fun _ n hn => ?_⟩
        (fun _ => id) (fun _ => Or.inr)
      rw [hc.gone _ ⟨n, habi.trans hn, rfl⟩]
      simp)
  have h3 := h2.bind (k := removeMatching (root ++ [lib]) unw)
    (c' := ∀ n, unw <+: n → t.item (root ++ [lib] ++ [n]) ≠ some .dir)
    (g' := fun p => ∃ n, unw <+: n ∧ p = root ++ [lib] ++ [n]) (by
      intro _ t1 hc
      refine (cuts_removeMatching t1 (root ++ [lib]) unw).mono ?_ (fun _ => id) (fun _ => Or.inr)
      have hk : ∀ n, unw <+: n → t1.item (root ++ [lib] ++ [n]) = t.item (root ++ [lib] ++ [n]) := by
        intro n hn
        refine hc.kept _ ?_
        have hno : ¬ cpp <+: n := fun hc' =>
          (List.prefix_or_prefix_of_prefix hc' hn).elim hun hun'
        rintro (⟨m, hm, he⟩ | ⟨m, hm, he⟩)
        · have : n = m := by simpa using he
          exact hno (this ▸ hm)
        · have : n = m := by simpa using he
          exact hno (this ▸ habi.trans hm)
      constructor
      · intro h n hn
        rw [← hk n hn]
        exact h n hn
      · intro h n hn
        rw [hk n hn]
        exact h n hn)
  refine h3.mono ?_ ?_ ?_
  · constructor
    · rintro ⟨⟨h, -⟩, h'⟩ n (hn | hn)
      · rw [← hassoc]; exact h n hn
      · rw [← hassoc]; exact h' n hn
    · intro h
      refine ⟨⟨fun n hn => ?_, trivial⟩, fun n hn => ?_⟩
      · rw [hassoc]; exact h n (Or.inl hn)
      · rw [hassoc]; exact h n (Or.inr hn)
  · rintro p ((⟨n, hn, rfl⟩ | ⟨n, hn, rfl⟩) | ⟨n, hn, rfl⟩)
    · exact ⟨n, Or.inl hn, hassoc n⟩
    · exact ⟨n, Or.inl (habi.trans hn), hassoc n⟩
    · exact ⟨n, Or.inr hn, hassoc n⟩
  · rintro p ⟨n, hn | hn, rfl⟩
    · exact Or.inr (Or.inl (Or.inl ⟨n, hn, (hassoc n).symm⟩))
    · exact Or.inr (Or.inr ⟨n, hn, (hassoc n).symm⟩)

/-! ## Headers of C++ -/

theorem occursIn_iff (word text : Str) : occursIn word text = true ↔ ∃ a b, text = a ++ word ++ b := by
  unfold occursIn
  rw [List.any_eq_true]
  constructor
  · rintro ⟨s, hs, hp⟩
    rw [List.mem_tails] at hs
    obtain ⟨a, rfl⟩ := hs
    obtain ⟨b, rfl⟩ := of_decide_eq_true hp
    exact ⟨a, b, by simp⟩
  · rintro ⟨a, b, rfl⟩
    refine ⟨word ++ b, ?_, decide_eq_true (List.prefix_append _ _)⟩
    rw [List.mem_tails]
    exact ⟨a, by simp⟩

theorem mentions_iff (word name : Str) : occursIn word (name.map Char.toLower) = true ↔ Mentions word name := by
  rw [occursIn_iff]
  constructor
  · rintro ⟨a, b, h⟩
    obtain ⟨x, y, rfl, hx, hy⟩ := List.map_eq_append_iff.1 h
    obtain ⟨u, v, rfl, hu, hv⟩ := List.map_eq_append_iff.1 hx
    exact ⟨u, v, y, rfl, hv⟩
  · rintro ⟨a, m, b, rfl, hm⟩
    exact ⟨a.map Char.toLower, b.map Char.toLower, by simp [hm]⟩

theorem platformName_iff (n : Str) : platformName n = true ↔ ApplePlatform n := by
  unfold platformName ApplePlatform
  rw [Bool.or_eq_true, mentions_iff, mentions_iff]

theorem not_apple_cpp : ¬ ApplePlatform "c++".toList := by
  rw [← platformName_iff]
  decide

theorem cuts_removeHeaders (t : FileTree) (root : Place) (hs : SoundTree t) :
    Cuts t (removeLibcxxHeaders true root t)
      (t.item (root ++ ["include".toList]) = some .dir ∧
        ∀ d, CppHeaders root d → t.item d = none ∨ t.item d = some .dir)
      (fun p => ∃ d, CppHeaders root d ∧ d <+: p) := by
  have hnot := not_apple_cpp
  unfold removeLibcxxHeaders CppHeaders
  rw [if_pos rfl]
  generalize "include".toList = inc at *
  generalize "c++".toList = cpp at *
  have hbelow : ∀ (u : FileTree), SoundTree u → ∀ d, u.item d = none → ∀ q, d <+: q → u.item q = none := by
    intro u hu d hd q hq
    by_contra hne
    by_cases he : d = q
    · exact hne (he ▸ hd)
    · rw [hu q d hq he hne] at hd
      cases hd
  have h1 := cuts_rmtreeIfThere t (root ++ [inc, cpp]) (hbelow t hs _)
  have h2 := h1.bind (k := fun t => if t.isDir (root ++ [inc]) then
        inTurn (fun n t => rmtreeIfThere (root ++ [inc, n, cpp]) t)
          ((t.names (root ++ [inc])).filter platformName) t
      else none)
    (c' := t.item (root ++ [inc]) = some .dir ∧ ∀ n, ApplePlatform n →
      (t.item (root ++ [inc, n, cpp]) = none ∨ t.item (root ++ [inc, n, cpp]) = some .dir))
    (g' := fun p => ∃ n, ApplePlatform n ∧ root ++ [inc, n, cpp] <+: p) (by
      intro _ t1 hc
      have hs1 : SoundTree t1 := hc.sound hs fun q p hq hg _ => hg.trans hq
      have hinc : t1.item (root ++ [inc]) = t.item (root ++ [inc]) := by
        refine hc.kept _ fun h => ?_
        have := h.length_le
        simp at this
      have happle : ∀ n, ApplePlatform n → ∀ y, t1.item (root ++ inc :: n :: y) = t.item (root ++ inc :: n :: y) := by
        intro n hn y
        refine hc.kept _ fun h => ?_
        rw [List.prefix_append_right_inj] at h
        rw [List.cons_prefix_cons, List.cons_prefix_cons] at h
        exact hnot (h.2.1 ▸ hn)
      show Cuts t1 (if t1.isDir (root ++ [inc]) then _ else none) _ _
      by_cases hd : t1.isDir (root ++ [inc]) = true
      · rw [if_pos hd]
        have hd' : t.item (root ++ [inc]) = some .dir := hinc ▸ (isDir_iff _ _).1 hd
        have hmem : ∀ n, n ∈ (t1.names (root ++ [inc])).filter platformName ↔
            t1.item (root ++ [inc, n]) ≠ none ∧ ApplePlatform n := by
          intro n
          rw [List.mem_filter, mem_names, platformName_iff]
          simp
        have h := cuts_inTurn t1 (fun n t => rmtreeIfThere (root ++ [inc, n, cpp]) t)
          (fun n => t1.item (root ++ [inc, n, cpp]) = none ∨ t1.item (root ++ [inc, n, cpp]) = some .dir)
          (fun n p => root ++ [inc, n, cpp] <+: p) (by
            intro n m p hn hm
            rcases List.prefix_or_prefix_of_prefix hn hm with h | h
            · rw [List.prefix_append_right_inj, List.cons_prefix_cons, List.cons_prefix_cons] at h
              exact h.2.1
            · rw [List.prefix_append_right_inj, List.cons_prefix_cons, List.cons_prefix_cons] at h
              exact h.2.1.symm)
          ((t1.names (root ++ [inc])).filter platformName) ((tree_names_nodup _ _).filter _) (by
            intro n _ u hu
            have := cuts_rmtreeIfThere u (root ++ [inc, n, cpp]) (by
              intro h q hq
              rw [hu _ hq]
              rw [hu _ (List.prefix_refl _)] at h
              exact hbelow t1 hs1 _ h q hq)
            rw [hu _ (List.prefix_refl _)] at this
            exact this) t1 (fun _ _ _ _ => rfl)
        have hnone : ∀ n, t1.item (root ++ [inc, n]) = none → ∀ p, root ++ [inc, n, cpp] <+: p →
            t1.item p = none := by
          intro n hn p hp
          refine hbelow t1 hs1 _ hn p (List.IsPrefix.trans ?_ hp)
          exact ⟨[cpp], by simp⟩
        refine h.mono ?_ ?_ ?_
        · constructor
          · intro h
            refine ⟨hd', fun n hn => ?_⟩
            rw [← happle n hn [cpp]]
            by_cases hin : t1.item (root ++ [inc, n]) = none
            · exact Or.inl (hnone n hin _ (List.prefix_refl _))
            · exact h n ((hmem n).2 ⟨hin, hn⟩)
          · rintro ⟨-, h⟩ n hn
            have := h n ((hmem n).1 hn).2
            rw [← happle n ((hmem n).1 hn).2 [cpp]] at this
            exact this
        · rintro p ⟨n, hn, hp⟩
          exact ⟨n, ((hmem n).1 hn).2, hp⟩
        · rintro p ⟨n, hn, hp⟩
          by_cases hin : t1.item (root ++ [inc, n]) = none
          · exact Or.inl (hnone n hin p hp)
          · exact Or.inr ⟨n, (hmem n).2 ⟨hin, hn⟩, hp⟩
      · rw [if_neg hd]
        refine Or.inr ⟨rfl, fun h => hd ?_⟩
        rw [isDir_iff, hinc]
        exact h.1)
  refine h2.mono ?_ ?_ ?_
  · constructor
    · rintro ⟨h, h', h''⟩
      refine ⟨h', ?_⟩
      rintro d (rfl | ⟨n, hn, rfl⟩)
      · exact h
      · exact h'' n hn
    · rintro ⟨h', h⟩
      exact ⟨h _ (Or.inl rfl), h', fun n hn => h _ (Or.inr ⟨n, hn, rfl⟩)⟩
  · rintro p (hp | ⟨n, hn, hp⟩)
    · exact ⟨_, Or.inl rfl, hp⟩
    · exact ⟨_, Or.inr ⟨n, hn, rfl⟩, hp⟩
  · rintro p ⟨d, rfl | ⟨n, hn, rfl⟩, hp⟩
    · exact Or.inr (Or.inl hp)
    · exact Or.inr (Or.inr ⟨n, hn, hp⟩)

theorem installPlace_eq (h : BundleHost) : installPlace h = llvmDirectory h := rfl

theorem cuts_trim (h : BundleHost) (t : FileTree) (hs : SoundTree t) (hd : h.darwin = true) :
    Cuts t (trimLlvm h t)
      ((∀ n, CppLibrary n → t.item (llvmDirectory h ++ ["lib".toList, n]) ≠ some .dir) ∧
        t.item (llvmDirectory h ++ ["include".toList]) = some .dir ∧
        ∀ d, CppHeaders (llvmDirectory h) d → t.item d = none ∨ t.item d = some .dir)
      (Removed (llvmDirectory h)) := by
  unfold trimLlvm
  rw [if_pos hd, hd, installPlace_eq]
  generalize llvmDirectory h = root
  have hli : "lib".toList ≠ "include".toList := by decide
  refine (cuts_removeLibcxx t root).bind ?_
  intro hc t1 h1
  have hs1 : SoundTree t1 := by
    refine h1.sound hs ?_
    rintro q p hq ⟨n, hn, rfl⟩ hp
    by_cases he : root ++ ["lib".toList, n] = p
    · exact ⟨n, hn, he.symm⟩
    · exact absurd (hs p _ hq he hp) (hc n hn)
  have hk : ∀ y, t1.item (root ++ "include".toList :: y) = t.item (root ++ "include".toList :: y) := by
    intro y
    refine h1.kept _ ?_
    rintro ⟨n, -, he⟩
    rw [List.append_cancel_left_eq, List.cons.injEq] at he
    exact hli he.1.symm
  refine (cuts_removeHeaders t1 root hs1).mono ?_ (fun _ => id) (fun _ => Or.inr)
  rw [hk []]
  have hd : ∀ d, CppHeaders root d → t1.item d = t.item d := by
    rintro d (rfl | ⟨n, -, rfl⟩)
    · exact hk _
    · exact hk _
  constructor
  · rintro ⟨a, b⟩
    exact ⟨a, fun d hd' => hd d hd' ▸ b d hd'⟩
  · rintro ⟨a, b⟩
    exact ⟨a, fun d hd' => (hd d hd').symm ▸ b d hd'⟩

end Oclint
