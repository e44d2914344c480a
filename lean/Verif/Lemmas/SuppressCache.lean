import Verif.Lemmas.Suppress

/-!
# The static suppression maps after any sequence of calls
-/

namespace Oclint
open Spec

theorem find_congr {α : Type} (l : List α) (f g : α → Bool) (h : ∀ x ∈ l, f x = g x) :
    l.find? f = l.find? g := by
  induction l with
  | nil => rfl
  | cons a l ih =>
    rw [List.find?_cons, List.find?_cons, h a (by simp), ih fun x hx => h x (by simp [hx])]

theorem cacheAfter_snoc (apple : Bool) (qs : List Query) (q : Query) :
    cacheAfter apple (qs ++ [q]) =
      (shouldSuppressLine apple (cacheAfter apple qs) q.unit q.rule q.line).2 := by
  simp [cacheAfter]

theorem lineBased_ranges (apple : Bool) (st : SuppressCache) (u : SourceUnit) (l : Int) :
    (lineBasedShouldSuppress apple st u l).2.ranges = st.ranges := by
  unfold lineBasedShouldSuppress; split <;> rfl

theorem lineBased_lines (apple : Bool) (st : SuppressCache) (u : SourceUnit) (l : Int) (p : Str) :
    (lineBasedShouldSuppress apple st u l).2.lines p =
      if p = u.mainPath then some ((st.lines p).getD (commentLines apple u)) else st.lines p := by
  unfold lineBasedShouldSuppress
  by_cases hp : p = u.mainPath
  · subst hp
    rw [if_pos rfl]
    rcases h : st.lines u.mainPath with _ | f
    · simp
    · simp [h]
  · rw [if_neg hp]
    rcases h : st.lines u.mainPath with _ | f
    · simp [hp]
    · simp

theorem lineBased_answer (apple : Bool) (st : SuppressCache) (u : SourceUnit) (l : Int) :
    (lineBasedShouldSuppress apple st u l).1 =
      decide (l ∈ (st.lines u.mainPath).getD (commentLines apple u)) := by
  unfold lineBasedShouldSuppress
  rcases h : st.lines u.mainPath with _ | f <;> simp

theorem rangeBased_lines (st : SuppressCache) (u : SourceUnit) (r : Option Str) (l : Int) :
    (rangeBasedShouldSuppress st u r l).2.lines = st.lines := by
  unfold rangeBasedShouldSuppress; split <;> rfl

theorem rangeBased_ranges (st : SuppressCache) (u : SourceUnit) (r : Option Str) (l : Int)
    (p : Str) :
    (rangeBasedShouldSuppress st u r l).2.ranges p =
      if p = u.mainPath then some ((st.ranges p).getD (collectRanges u r)) else st.ranges p := by
  unfold rangeBasedShouldSuppress
  by_cases hp : p = u.mainPath
  · subst hp
    rw [if_pos rfl]
    rcases h : st.ranges u.mainPath with _ | f
    · simp
    · simp [h]
  · rw [if_neg hp]
    rcases h : st.ranges u.mainPath with _ | f
    · simp [hp]
    · simp

theorem rangeBased_answer (st : SuppressCache) (u : SourceUnit) (r : Option Str) (l : Int) :
    (rangeBasedShouldSuppress st u r l).1 =
      inSomeRange l ((st.ranges u.mainPath).getD (collectRanges u r)) := by
  unfold rangeBasedShouldSuppress
  rcases h : st.ranges u.mainPath with _ | f <;> simp

theorem shouldSuppress_lines (apple : Bool) (st : SuppressCache) (u : SourceUnit) (r : Option Str)
    (l : Int) :
    (shouldSuppressLine apple st u r l).2.lines = (lineBasedShouldSuppress apple st u l).2.lines := by
  unfold shouldSuppressLine
  simp only
  split
  · rfl
  · rcases r with _ | r
    · rfl
    · exact rangeBased_lines _ _ _ _

/-- Contents of the line map after some calls. -/
theorem cache_lines (apple : Bool) (qs : List Query) (p : Str) :
    (cacheAfter apple qs).lines p =
      (qs.find? fun q => decide (q.unit.mainPath = p)).map fun q => commentLines apple q.unit := by
  induction qs using List.reverseRecOn with
  | nil => rfl
  | append_singleton qs q ih =>
    rw [cacheAfter_snoc, shouldSuppress_lines, lineBased_lines, ih, List.find?_append]
    by_cases hp : p = q.unit.mainPath
    · subst hp
      rw [if_pos rfl]
      rcases List.find? (fun q' => decide (q'.unit.mainPath = q.unit.mainPath)) qs with _ | f
      · simp
      · simp
    · rw [if_neg hp]
      have : ¬ q.unit.mainPath = p := fun h => hp h.symm
      simp [this]

theorem lines_getD (apple : Bool) (qs : List Query) (u : SourceUnit) :
    ((cacheAfter apple qs).lines u.mainPath).getD (commentLines apple u) =
      commentLines apple (commentSource qs u) := by
  rw [cache_lines]
  unfold commentSource
  generalize qs.find? _ = f
  rcases f with _ | f <;> rfl

theorem line_answer_iff (apple : Bool) (qs : List Query) (u : SourceUnit) (l : Int) :
    (lineBasedShouldSuppress apple (cacheAfter apple qs) u l).1 = true ↔
      LineSuppressed apple (commentSource qs u) l := by
  rw [lineBased_answer, lines_getD, decide_eq_true_eq, mem_commentLines]

theorem commentSource_snoc (qs : List Query) (q' q : Query) (h : q ∈ qs) :
    commentSource (qs ++ [q']) q.unit = commentSource qs q.unit := by
  unfold commentSource
  rw [List.find?_append]
  rcases h2 : qs.find? _ with _ | f
  · rw [List.find?_eq_none] at h2
    exact absurd (h2 q h) (by simp)
  · rfl

theorem commentSource_snoc_self (qs : List Query) (q : Query) :
    commentSource (qs ++ [q]) q.unit = commentSource qs q.unit := by
  unfold commentSource
  rw [List.find?_append]
  generalize qs.find? _ = f
  rcases f with _ | f
  · simp
  · rfl

theorem shouldSuppress_ranges (apple : Bool) (qs : List Query) (q : Query) (p : Str) :
    (shouldSuppressLine apple (cacheAfter apple qs) q.unit q.rule q.line).2.ranges p =
      open Classical in
      if p = q.unit.mainPath ∧ q.rule ≠ none ∧ ¬ LineSuppressed apple (commentSource qs q.unit) q.line
      then some (((cacheAfter apple qs).ranges p).getD (collectRanges q.unit q.rule))
      else (cacheAfter apple qs).ranges p := by
  have hl := line_answer_iff apple qs q.unit q.line
  have hr := lineBased_ranges apple (cacheAfter apple qs) q.unit q.line
  unfold shouldSuppressLine
  simp only
  by_cases h : (lineBasedShouldSuppress apple (cacheAfter apple qs) q.unit q.line).1 = true
  · rw [if_pos h, if_neg (by rintro ⟨_, _, h3⟩; exact h3 (hl.1 h)), hr]
  · rw [if_neg h]
    have h' : ¬ LineSuppressed apple (commentSource qs q.unit) q.line := fun h2 => h (hl.2 h2)
    rcases hq : q.rule with _ | r
    · rw [if_neg (by simp), hr]
    · simp only
      rw [rangeBased_ranges, hr]
      by_cases hp : p = q.unit.mainPath
      · rw [if_pos hp, if_pos ⟨hp, by simp, h'⟩]
      · rw [if_neg hp, if_neg (by rintro ⟨h1, _⟩; exact hp h1)]

open Classical in
/-- Contents of the range map after some calls. -/
theorem cache_ranges (apple : Bool) (qs : List Query) (p : Str) :
    (cacheAfter apple qs).ranges p =
      (qs.find? fun q' => decide (q'.unit.mainPath = p ∧ q'.rule ≠ none ∧
        ¬ LineSuppressed apple (commentSource qs q'.unit) q'.line)).map
        fun q => collectRanges q.unit q.rule := by
  induction qs using List.reverseRecOn with
  | nil => rfl
  | append_singleton qs q ih =>
    rw [cacheAfter_snoc, shouldSuppress_ranges, ih, List.find?_append]
    have hcongr : (qs.find? fun q' => decide (q'.unit.mainPath = p ∧ q'.rule ≠ none ∧
          ¬ LineSuppressed apple (commentSource (qs ++ [q]) q'.unit) q'.line)) =
        qs.find? fun q' => decide (q'.unit.mainPath = p ∧ q'.rule ≠ none ∧
          ¬ LineSuppressed apple (commentSource qs q'.unit) q'.line) := by
      apply find_congr
      intro x hx
      rw [commentSource_snoc qs q x hx]
    rw [hcongr]
    generalize qs.find? _ = f
    by_cases hc : p = q.unit.mainPath ∧ q.rule ≠ none ∧
        ¬ LineSuppressed apple (commentSource qs q.unit) q.line
    · rw [if_pos hc]
      rcases f with _ | f
      · rw [Option.none_or, List.find?_cons_of_pos]
        · rfl
        · rw [decide_eq_true_eq, commentSource_snoc_self]
          exact ⟨hc.1.symm, hc.2⟩
      · rfl
    · rw [if_neg hc]
      rcases f with _ | f
      · rw [Option.none_or, List.find?_cons_of_neg]
        · rfl
        · rw [decide_eq_true_eq, commentSource_snoc_self]
          rintro ⟨h1, h2⟩
          exact hc ⟨h1.symm, h2⟩
      · rfl

theorem ranges_getD (apple : Bool) (qs : List Query) (q : Query) :
    ((cacheAfter apple qs).ranges q.unit.mainPath).getD (collectRanges q.unit q.rule) =
      collectRanges (rangeSource apple qs q).unit (rangeSource apple qs q).rule := by
  rw [cache_ranges]
  unfold rangeSource
  generalize qs.find? _ = f
  rcases f with _ | f <;> rfl

open Classical in
theorem rangeSource_rule (apple : Bool) (qs : List Query) (q : Query) (h : q.rule ≠ none) :
    (rangeSource apple qs q).rule ≠ none := by
  unfold rangeSource
  rcases hf : qs.find? _ with _ | f
  · exact h
  · have := List.find?_some hf
    exact (of_decide_eq_true this).2.1

theorem answer_iff (apple : Bool) (qs : List Query) (q : Query) :
    answer apple qs q = true ↔
      LineSuppressed apple (commentSource qs q.unit) q.line ∨
      (q.rule ≠ none ∧ ∃ r, (rangeSource apple qs q).rule = some r ∧
        RangeSuppressed (rangeSource apple qs q).unit r q.line) := by
  have hl := line_answer_iff apple qs q.unit q.line
  unfold answer shouldSuppressLine
  simp only
  by_cases h : (lineBasedShouldSuppress apple (cacheAfter apple qs) q.unit q.line).1 = true
  · rw [if_pos h]; simp only [true_iff]; exact Or.inl (hl.1 h)
  · rw [if_neg h]
    have h' : ¬ LineSuppressed apple (commentSource qs q.unit) q.line := fun h2 => h (hl.2 h2)
    rcases hq : q.rule with _ | r
    · simp [h']
    · simp only [h', false_or, ne_eq, reduceCtorEq, not_false_eq_true, true_and]
      have hne := rangeSource_rule apple qs q (by rw [hq]; simp)
      have hg := ranges_getD apple qs q
      rw [hq] at hg
      rw [rangeBased_answer, lineBased_ranges, hg]
      rcases hs : (rangeSource apple qs q).rule with _ | r'
      · exact absurd hs hne
      · rw [inRanges_iff]; simp

end Oclint
