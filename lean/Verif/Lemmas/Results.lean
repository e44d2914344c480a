import Verif.Spec.Results

namespace Oclint
open Spec

theorem violationEq_iff (a b : Violation) : violationEq a b = true ↔ a = b := by
  cases a; cases b
  simp [violationEq, and_assoc]

theorem foldl_snoc (l acc : List Violation) :
    l.foldl (fun acc v => acc ++ [v]) acc = acc ++ l := by
  induction l generalizing acc with
  | nil => simp
  | cons a t ih => simp [ih]

theorem collectAll_aux (sets : List ViolationSet) (acc : List Violation) :
    sets.foldl (fun acc s => s.foldl (fun acc v => acc ++ [v]) acc) acc = acc ++ sets.flatten := by
  induction sets generalizing acc with
  | nil => simp
  | cons a t ih =>
    rw [List.foldl_cons, foldl_snoc, ih, List.flatten_cons, List.append_assoc]

theorem collectAll_eq (sets : List ViolationSet) : collectAll sets = sets.flatten := by
  rw [collectAll, collectAll_aux, List.nil_append]

theorem rawAll_foldl (ch : Channel) (evs : List Event) (c : ResultCollector) :
    rawAll (evs.foldl applyEvent c) ch = rawAll c ch ++ expected ch evs := by
  induction evs generalizing c with
  | nil => simp [expected]
  | cons e t ih =>
    simp only [List.foldl_cons, ih, expected, List.flatMap_cons, ← List.append_assoc]
    congr 1
    cases ch <;> cases e <;>
      simp [rawAll, applyEvent, ResultCollector.add, ResultCollector.addError,
        ResultCollector.addWarning, ResultCollector.addCheckerBug, ViolationSet.addViolation,
        collectAll_eq]

theorem mem_firsts (v : Violation) (l : List Violation) : v ∈ firsts l ↔ v ∈ l := by
  induction l with
  | nil => simp [firsts]
  | cons a t ih =>
    simp only [firsts, List.mem_cons, List.mem_filter, ih, decide_eq_true_eq]
    by_cases h : v = a <;> simp [h]

theorem nodup_firsts (l : List Violation) : (firsts l).Nodup := by
  induction l with
  | nil => simp [firsts]
  | cons a t ih =>
    simp only [firsts, List.nodup_cons, List.mem_filter]
    exact ⟨by simp, ih.filter _⟩

theorem firsts_sublist (l : List Violation) : (firsts l).Sublist l := by
  induction l with
  | nil => simp [firsts]
  | cons a t ih =>
    exact List.Sublist.cons_cons _ (List.Sublist.trans List.filter_sublist ih)

theorem firsts_append (l m : List Violation) :
    firsts (l ++ m) = firsts l ++ (firsts m).filter (fun w => decide (w ∉ l)) := by
  induction l with
  | nil => simp [firsts]
  | cons a t ih =>
    simp only [List.cons_append, firsts, ih, List.filter_append, List.filter_filter]
    congr 2
    apply List.filter_congr
    intro x _
    by_cases h1 : x = a <;> by_cases h2 : x ∈ t <;> simp [h1, h2]

theorem firsts_of_nodup (l : List Violation) (h : l.Nodup) : firsts l = l := by
  induction l with
  | nil => rfl
  | cons a t ih =>
    rw [List.nodup_cons] at h
    simp only [firsts, ih h.2]
    congr 1
    rw [List.filter_eq_self]
    intro x hx
    simp only [decide_eq_true_eq]
    rintro rfl
    exact h.1 hx

/-- A hash set represents a list when every bucket holds exactly the elements of the list with
that hash. -/
def Represents {κ : Type} (h : Violation → κ) (s : HashSet κ) (l : List Violation) : Prop :=
  ∀ v, v ∈ s (h v) ↔ v ∈ l

theorem insert_spec {κ : Type} [DecidableEq κ] (h : Violation → κ) (s : HashSet κ)
    (l : List Violation) (hr : Represents h s l) (v : Violation) :
    ((s.insert h v).2 = true ↔ v ∉ l) ∧
      (∀ w, w ∈ (s.insert h v).1 (h w) ↔ w = v ∨ w ∈ l) := by
  unfold HashSet.insert
  have hany : ((s (h v)).any fun w => violationEq w v) = true ↔ v ∈ l := by
    rw [List.any_eq_true, ← hr v]
    constructor
    · rintro ⟨x, hx, he⟩
      rw [violationEq_iff] at he
      exact he ▸ hx
    · intro hx
      exact ⟨v, hx, (violationEq_iff _ _).2 rfl⟩
  by_cases hv : v ∈ l
  · rw [if_pos (hany.2 hv)]
    refine ⟨by simp [hv], ?_⟩
    intro w
    rw [hr w]
    constructor
    · exact Or.inr
    · rintro (rfl | h') <;> assumption
  · rw [if_neg (fun hc => hv (hany.1 hc))]
    refine ⟨by simp [hv], ?_⟩
    intro w
    by_cases hk : h w = h v
    · simp only [hk, if_true, List.mem_cons]
      rw [← hk, hr w]
    · simp only [hk, if_false]
      rw [hr w]
      constructor
      · exact Or.inr
      · rintro (rfl | h')
        · exact absurd rfl hk
        · exact h'

theorem removeDupLoop_eq {κ : Type} [DecidableEq κ] (h : Violation → κ) (vs : List Violation) :
    ∀ (s : HashSet κ) (out seen : List Violation), Represents h s seen →
      removeDupLoop h s out vs = out ++ (firsts vs).filter (fun w => decide (w ∉ seen)) := by
  induction vs with
  | nil => intro s out seen _; simp [removeDupLoop, firsts]
  | cons v vs ih =>
    intro s out seen hr
    obtain ⟨h1, h2⟩ := insert_spec h s seen hr v
    simp only [removeDupLoop]
    have hr' : Represents h (s.insert h v).1 (v :: seen) := by
      intro w; rw [h2 w, List.mem_cons]
    have hfilter : ∀ l : List Violation,
        (l.filter fun w => decide (w ∉ v :: seen)) =
          (l.filter fun w => decide (w ≠ v)).filter fun w => decide (w ∉ seen) := by
      intro l
      rw [List.filter_filter]
      apply List.filter_congr
      intro x _
      by_cases e1 : x = v <;> by_cases e2 : x ∈ seen <;> simp [e1, e2]
    by_cases hv : v ∈ seen
    · rw [if_neg (fun hc => (h1.1 hc) hv), ih _ _ _ hr', hfilter]
      simp [firsts, hv]
    · rw [if_pos (h1.2 hv), ih _ _ _ hr', hfilter]
      simp [firsts, hv]

theorem removeDuplicates_eq {κ : Type} [DecidableEq κ] (h : Violation → κ) (vs : List Violation) :
    removeDuplicates h vs = firsts vs := by
  unfold removeDuplicates
  rw [removeDupLoop_eq h vs (fun _ => []) [] [] (by intro v; simp)]
  simp

theorem firsts_eq_nil (l : List Violation) : firsts l = [] ↔ l = [] := by
  cases l <;> simp [firsts]

/-! ### Memo invariants -/

theorem uniqueAll_answer {κ : Type} [DecidableEq κ] (h : Violation → κ) (c : ResultCollector)
    (m : UniqueMemo) (ch : Channel) :
    (uniqueAll h c m ch).1 = if m.get ch ≠ [] then m.get ch else firsts (rawAll c ch) := by
  unfold uniqueAll
  split <;> simp [removeDuplicates_eq]

theorem uniqueAll_memo {κ : Type} [DecidableEq κ] (h : Violation → κ) (c : ResultCollector)
    (m : UniqueMemo) (ch ch' : Channel) :
    (uniqueAll h c m ch).2.get ch' =
      if ch' = ch then (uniqueAll h c m ch).1 else m.get ch' := by
  unfold uniqueAll
  split <;> cases ch <;> cases ch' <;> simp [UniqueMemo.get, UniqueMemo.set]

theorem collector_after_steps {κ : Type} [DecidableEq κ] (h : Violation → κ) (steps : List Step)
    (st : ResultCollector × UniqueMemo) :
    (steps.foldl (runStep h) st).1 = (eventsOf steps).foldl applyEvent st.1 := by
  induction steps generalizing st with
  | nil => rfl
  | cons s t ih =>
    rw [List.foldl_cons, ih]
    cases s <;> simp [runStep, eventsOf]

theorem stateAfter_fst {κ : Type} [DecidableEq κ] (h : Violation → κ) (steps : List Step) :
    (stateAfter h steps).1 = collectorAfter (eventsOf steps) :=
  collector_after_steps h steps _

theorem stateAfter_append {κ : Type} [DecidableEq κ] (h : Violation → κ) (p s : List Step) :
    stateAfter h (p ++ s) = s.foldl (runStep h) (stateAfter h p) := by
  simp [stateAfter]

/-- Once a memo field is non-empty it never changes. -/
theorem memo_frozen {κ : Type} [DecidableEq κ] (h : Violation → κ) (ch : Channel) (s : List Step)
    (st : ResultCollector × UniqueMemo) (hne : st.2.get ch ≠ []) :
    (s.foldl (runStep h) st).2.get ch = st.2.get ch := by
  induction s generalizing st with
  | nil => rfl
  | cons a t ih =>
    rw [List.foldl_cons]
    have key : (runStep h st a).2.get ch = st.2.get ch := by
      cases a with
      | event e => rfl
      | ask ch' =>
        simp only [runStep, uniqueAll_memo]
        split
        · next heq => subst heq; rw [uniqueAll_answer, if_pos hne]
        · rfl
    rw [ih _ (by rw [key]; exact hne), key]

/-! ### File statistics -/

theorem mapAdd_keys (m : List (Str × Nat)) (k : Str) (n : Nat) :
    (mapAdd m k n).map Prod.fst =
      if k ∈ m.map Prod.fst then m.map Prod.fst else m.map Prod.fst ++ [k] := by
  induction m with
  | nil => simp [mapAdd]
  | cons a t ih =>
    obtain ⟨k', n'⟩ := a
    simp only [mapAdd]
    by_cases h : k' = k
    · simp [h]
    · simp only [if_neg h, List.map_cons, ih, List.mem_cons]
      by_cases hk : k ∈ t.map Prod.fst
      · simp [hk]
      · rw [if_neg hk, if_neg]
        · simp
        · rintro (h' | h')
          · exact h h'.symm
          · exact hk h'

/-- Paths of the first violations of the non-empty sets. -/
def headPaths (sets : List ViolationSet) : List Str :=
  sets.filterMap fun s => s.head?.map Violation.path

theorem filesFold_keys (sets : List ViolationSet) (m : List (Str × Nat))
    (hm : (m.map Prod.fst).Nodup) :
    ((sets.foldl filesStep m).map Prod.fst).Nodup ∧
      ((sets.foldl filesStep m).map Prod.fst).toFinset = (m.map Prod.fst).toFinset ∪ (headPaths sets).toFinset := by
  induction sets generalizing m with
  | nil => simp [headPaths, hm]
  | cons s t ih =>
    cases s with
    | nil => simpa [headPaths, filesStep, List.filterMap_cons] using ih m hm
    | cons v rest =>
      have hm' : ((mapAdd m v.path (rest.length + 1)).map Prod.fst).Nodup := by
        rw [mapAdd_keys]
        split
        · exact hm
        · next hk =>
          rw [List.nodup_append]
          refine ⟨hm, by simp, ?_⟩
          intro a ha b hb
          simp only [List.mem_singleton] at hb
          subst hb
          rintro rfl
          exact hk ha
      have := ih _ hm'
      refine ⟨this.1, ?_⟩
      rw [List.foldl_cons]
      refine this.2.trans ?_
      have hset : ((mapAdd m v.path (rest.length + 1)).map Prod.fst).toFinset =
          (m.map Prod.fst).toFinset ∪ {v.path} := by
        rw [mapAdd_keys]
        split
        · next hk =>
          rw [Finset.union_eq_left.2]
          simpa using hk
        · ext x; simp
      rw [hset]
      ext x
      simp [headPaths]

theorem numberOfFilesWithViolations_eq (c : ResultCollector) :
    numberOfFilesWithViolations c = (headPaths c.collection).toFinset.card := by
  unfold numberOfFilesWithViolations
  have := filesFold_keys c.collection [] (by simp)
  simp only [List.map_nil, List.toFinset_nil, Finset.empty_union] at this
  rw [← this.2, List.toFinset_card_of_nodup this.1, List.length_map]

/-! ### Priorities -/

theorem countPriorityLoop_eq (priorityOf : RuleId → Int) (p : Int) (vs : List Violation)
    (hr : ∀ v ∈ vs, v.rule ≠ none) (n : Nat) :
    countPriorityLoop priorityOf p n vs = .ok (n + countWithPriority priorityOf p vs) := by
  induction vs generalizing n with
  | nil => simp [countPriorityLoop, countWithPriority]
  | cons v t ih =>
    have hv := hr v (by simp)
    have ht := fun w hw => hr w (List.mem_cons_of_mem _ hw)
    unfold countPriorityLoop
    cases hrule : v.rule with
    | none => exact absurd hrule hv
    | some r =>
      simp only
      by_cases hp : priorityOf r = p
      · rw [if_pos hp, ih ht]
        simp only [countWithPriority, List.filter_cons, hrule, Option.map_some, hp, decide_true,
          if_true, List.length_cons]
        congr 1; omega
      · rw [if_neg hp, ih ht]
        simp [countWithPriority, hrule, hp]

theorem countPriorityLoop_ub (priorityOf : RuleId → Int) (p : Int) (vs : List Violation)
    (hr : ∃ v ∈ vs, v.rule = none) (n : Nat) :
    countPriorityLoop priorityOf p n vs = .ub := by
  induction vs generalizing n with
  | nil => simp at hr
  | cons v t ih =>
    unfold countPriorityLoop
    cases hrule : v.rule with
    | none => rfl
    | some r =>
      have ht : ∃ v ∈ t, v.rule = none := by
        obtain ⟨w, hw, he⟩ := hr
        rcases List.mem_cons.1 hw with rfl | hw
        · rw [hrule] at he; cases he
        · exact ⟨w, hw, he⟩
      simp only
      split <;> exact ih ht _

end Oclint
