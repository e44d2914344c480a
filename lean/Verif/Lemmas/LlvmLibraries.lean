import Verif.Spec.LlvmSetup

/-!
# Members of static libraries
-/

namespace Oclint

open Spec

theorem mem_putMember (m : Member) (files : List Member) (hn : (files.map (·.1)).Nodup) (x : Member) :
    x ∈ putMember m files ↔ x = m ∨ x ∈ files ∧ x.1 ≠ m.1 := by
  induction files with
  | nil => simp [putMember]
  | cons y ys ih =>
    rw [List.map_cons, List.nodup_cons] at hn
    rw [putMember]
    by_cases h : y.1 = m.1
    · rw [if_pos h, List.mem_cons, List.mem_cons]
      constructor
      · rintro (hx | hx)
        · exact Or.inl hx
        · refine Or.inr ⟨Or.inr hx, fun he => hn.1 ?_⟩
          rw [h, ← he]
          exact List.mem_map_of_mem hx
      · rintro (hx | ⟨rfl | hx, hne⟩)
        · exact Or.inl hx
        · exact absurd h hne
        · exact Or.inr hx
    · rw [if_neg h, List.mem_cons, ih hn.2, List.mem_cons]
      constructor
      · rintro (rfl | hx | ⟨hx, hne⟩)
        · exact Or.inr ⟨Or.inl rfl, h⟩
        · exact Or.inl hx
        · exact Or.inr ⟨Or.inr hx, hne⟩
      · rintro (hx | ⟨rfl | hx, hne⟩)
        · exact Or.inr (Or.inl hx)
        · exact Or.inl rfl
        · exact Or.inr (Or.inr ⟨hx, hne⟩)

theorem putMember_nodup (m : Member) (files : List Member) (hn : (files.map (·.1)).Nodup) :
    ((putMember m files).map (·.1)).Nodup := by
  induction files with
  | nil => simp [putMember]
  | cons y ys ih =>
    have hn' := hn
    rw [List.map_cons, List.nodup_cons] at hn
    rw [putMember]
    by_cases h : y.1 = m.1
    · rw [if_pos h, List.map_cons, ← h]
      exact hn'
    · rw [if_neg h, List.map_cons, List.nodup_cons]
      refine ⟨fun hmem => ?_, ih hn.2⟩
      obtain ⟨x, hx, hxy⟩ := List.mem_map.1 hmem
      rcases (mem_putMember m ys hn.2 x).1 hx with rfl | ⟨hx, -⟩
      · exact h hxy.symm
      · exact hn.1 (hxy ▸ List.mem_map_of_mem hx)

theorem extract_append (ms : List Member) (m : Member) :
    extractMembers (ms ++ [m]) = putMember m (extractMembers ms) := by
  unfold extractMembers
  rw [List.foldl_append]
  rfl

theorem extract_nodup (ms : List Member) : ((extractMembers ms).map (·.1)).Nodup := by
  induction ms using List.reverseRecOn with
  | nil => simp [extractMembers]
  | append_singleton ms m ih => rw [extract_append]; exact putMember_nodup m _ ih

theorem lastNamed_append (ms : List Member) (m : Member) (n : Str) :
    lastNamed (ms ++ [m]) n = if m.1 = n then some m.2 else lastNamed ms n := by
  unfold lastNamed
  rw [List.reverse_append, List.reverse_singleton, List.singleton_append, List.find?_cons]
  by_cases h : m.1 = n <;> simp [h]

theorem mem_extract (ms : List Member) (n c : Str) :
    (n, c) ∈ extractMembers ms ↔ lastNamed ms n = some c := by
  induction ms using List.reverseRecOn with
  | nil => simp [extractMembers, lastNamed]
  | append_singleton ms m ih =>
    rw [extract_append, mem_putMember _ _ (extract_nodup ms), ih, lastNamed_append]
    obtain ⟨mn, mc⟩ := m
    by_cases h : mn = n
    · subst h
      rw [if_pos rfl]
      simp [eq_comm]
    · rw [if_neg h]
      constructor
      · rintro (he | ⟨h', -⟩)
        · exact absurd (congrArg Prod.fst he).symm h
        · exact h'
      · intro h'
        exact Or.inr ⟨h', fun he => h he.symm⟩

theorem objectName_iff (n : Str) : objectName n = true ↔ ObjectFile n := by
  unfold objectName ObjectFile
  generalize ".o".toList = o
  rw [Bool.and_eq_true, decide_eq_true_iff]
  constructor
  · rintro ⟨⟨stem, h⟩, h'⟩
    refine ⟨⟨stem, h.symm⟩, ?_⟩
    rintro rest rfl
    simp at h'
  · rintro ⟨⟨stem, h⟩, h'⟩
    refine ⟨⟨stem, h.symm⟩, ?_⟩
    cases n with
    | nil => rfl
    | cons x xs =>
      by_cases hx : x = '.'
      · subst hx; exact absurd rfl (h' xs)
      · simp [hx]

theorem tryConvert_fst (tools : LibraryTools) (m : Member) :
    (tryConvert tools m).1 = (m.1, nativeCode tools.llc m.2) := by
  unfold tryConvert nativeCode
  cases tools.llc m.2 <;> rfl

theorem tryConvert_snd (tools : LibraryTools) (m : Member) :
    (tryConvert tools m).2 = true ↔ tools.llc m.2 ≠ none := by
  unfold tryConvert
  cases tools.llc m.2 <;> simp

/-- What is found in the directory after `ar x`. -/
def objectFiles (tools : LibraryTools) (ms : List Member) : List Member :=
  tools.order ((extractMembers ms).filter fun m => objectName m.1)

theorem mem_objectFiles (tools : LibraryTools) (ho : ∀ l, (tools.order l).Perm l) (ms : List Member)
    (n c : Str) : (n, c) ∈ objectFiles tools ms ↔ ObjectFile n ∧ lastNamed ms n = some c := by
  unfold objectFiles
  rw [(ho _).mem_iff, List.mem_filter, mem_extract, objectName_iff]
  exact and_comm

theorem objectFiles_nodup (tools : LibraryTools) (ho : ∀ l, (tools.order l).Perm l) (ms : List Member) :
    ((objectFiles tools ms).map (·.1)).Nodup := by
  unfold objectFiles
  rw [((ho _).map _).nodup_iff]
  exact (extract_nodup ms).sublist (List.filter_sublist.map _)

theorem convert_eq (tools : LibraryTools) (ho : ∀ l, (tools.order l).Perm l) (ms : List Member) :
    (PackedAgain tools ms ∧ convertLibrary tools ms =
      (objectFiles tools ms).map fun m => (m.1, nativeCode tools.llc m.2)) ∨
    (¬ PackedAgain tools ms ∧ convertLibrary tools ms = ms) := by
  unfold convertLibrary
  have hany : ((objectFiles tools ms).map (tryConvert tools)).any (·.2) = true ↔
      ∃ n c, ObjectFile n ∧ lastNamed ms n = some c ∧ tools.llc c ≠ none := by
    rw [List.any_map, List.any_eq_true]
    constructor
    · rintro ⟨⟨n, c⟩, hm, hx⟩
      obtain ⟨h1, h2⟩ := (mem_objectFiles tools ho ms n c).1 hm
      exact ⟨n, c, h1, h2, (tryConvert_snd tools (n, c)).1 hx⟩
    · rintro ⟨n, c, h1, h2, h3⟩
      exact ⟨(n, c), (mem_objectFiles tools ho ms n c).2 ⟨h1, h2⟩, (tryConvert_snd tools (n, c)).2 h3⟩
  have hmap : ((objectFiles tools ms).map (tryConvert tools)).map (·.1) =
      (objectFiles tools ms).map fun m => (m.1, nativeCode tools.llc m.2) := by
    rw [List.map_map]
    exact List.map_congr_left fun m _ => tryConvert_fst tools m
  unfold PackedAgain
  by_cases he : tools.extracts = true
  · rw [if_pos he]
    show _ ∨ _ ∧ (if (((objectFiles tools ms).map (tryConvert tools)).any (·.2) && tools.repacks) = true
      then _ else _) = ms
    by_cases hc : (((objectFiles tools ms).map (tryConvert tools)).any (·.2) && tools.repacks) = true
    · refine Or.inl ⟨?_, ?_⟩
      · rw [Bool.and_eq_true] at hc
        exact ⟨he, hc.2, hany.1 hc.1⟩
      · show (if (((objectFiles tools ms).map (tryConvert tools)).any (·.2) && tools.repacks) = true
          then _ else _) = _
        rw [if_pos hc]
        exact hmap
    · refine Or.inr ⟨?_, ?_⟩
      · rintro ⟨-, h1, h2⟩
        exact hc (by rw [Bool.and_eq_true]; exact ⟨hany.2 h2, h1⟩)
      · rw [if_neg hc]
  · rw [if_neg he]
    exact Or.inr ⟨fun h => he h.1, rfl⟩

theorem extract_of_nodup (ms : List Member) (hn : (ms.map (·.1)).Nodup) : extractMembers ms = ms := by
  induction ms using List.reverseRecOn with
  | nil => rfl
  | append_singleton ms m ih =>
    rw [List.map_append, List.nodup_append] at hn
    rw [extract_append, ih hn.1]
    have hno : ∀ x ∈ ms, x.1 ≠ m.1 := by
      intro x hx
      exact hn.2.2 x.1 (List.mem_map_of_mem hx) m.1 (by simp)
    clear ih hn
    induction ms with
    | nil => rfl
    | cons y ys ih =>
      rw [putMember, if_neg (hno y List.mem_cons_self), ih fun x hx => hno x (List.mem_cons_of_mem _ hx)]
      rfl

theorem objectFiles_of_nodup (tools : LibraryTools) (ho : ∀ l, (tools.order l).Perm l) (ms : List Member)
    (hn : (ms.map (·.1)).Nodup) (hall : ∀ m ∈ ms, ObjectFile m.1) : (objectFiles tools ms).Perm ms := by
  unfold objectFiles
  refine (ho _).trans ?_
  rw [extract_of_nodup ms hn, List.filter_eq_self.2 fun m hm => (objectName_iff m.1).2 (hall m hm)]

theorem lastNamed_of_mem (ms : List Member) (hn : (ms.map (·.1)).Nodup) {n c : Str} (h : (n, c) ∈ ms) :
    lastNamed ms n = some c := by
  rw [← mem_extract, extract_of_nodup ms hn]
  exact h

theorem mem_of_lastNamed (ms : List Member) {n c : Str} (h : lastNamed ms n = some c) : (n, c) ∈ ms := by
  unfold lastNamed at h
  obtain ⟨m, hm, rfl⟩ := Option.map_eq_some_iff.1 h
  have h1 := List.mem_of_find?_eq_some hm
  have h2 := List.find?_some hm
  rw [← of_decide_eq_true h2]
  exact List.mem_reverse.1 h1

end Oclint
