import Verif.Lemmas.Results

/-!
# Properties C01-C05, C10: collected results
-/

namespace Oclint
open Spec

/-- A violation used in the examples of this file. -/
def exV (rule : Option RuleId) (path msg : String) (line : Int) : Violation :=
  { rule := rule, path := path.toList, startLine := line, startColumn := 1, endLine := line,
    endColumn := 2, message := msg.toList }

/-! ## C01 -/

/-- **C01.** After any sequence of collected units, errors, warnings and checker bugs, every channel
of the raw view contains exactly what was put there, in order. -/
theorem C01_raw_results_complete (evs : List Event) (ch : Channel) :
    rawAll (collectorAfter evs) ch = expected ch evs := by
  unfold collectorAfter
  rw [rawAll_foldl]
  cases ch <;> simp [rawAll, ResultCollector.empty, collectAll]

/-- **C01.** The counts are the lengths of what was collected and the `has...` flags say whether it
is non-empty. -/
theorem C01_raw_counts (evs : List Event) (ch : Channel) :
    numberOf (rawAll (collectorAfter evs) ch) = (expected ch evs).length ∧
      (hasAny (rawAll (collectorAfter evs) ch) = true ↔ expected ch evs ≠ []) := by
  rw [C01_raw_results_complete]
  refine ⟨rfl, ?_⟩
  simp [hasAny, numberOf, List.length_pos_iff]

/-- Two units, an error in between: the violations come out in order and the error separately. -/
example :
    rawAll (collectorAfter [.unit [exV (some 1) "a.c" "m" 1, exV (some 2) "a.c" "n" 2],
      .error (exV none "a.c" "boom" 3), .unit [exV (some 1) "b.c" "m" 1]]) .violations =
    [exV (some 1) "a.c" "m" 1, exV (some 2) "a.c" "n" 2, exV (some 1) "b.c" "m" 1] := by
  rw [C01_raw_results_complete]; rfl

/-! ## C02 -/

/-- **C02.** Duplicate removal returns the distinct violations at their first occurrence, for every
hash function, including ones with collisions. -/
theorem C02_dedup_firsts {κ : Type} [DecidableEq κ] (h : Violation → κ) (vs : List Violation) :
    removeDuplicates h vs = firsts vs :=
  removeDuplicates_eq h vs

/-- **C02.** The answer has no duplicates, the same members as the input, keeps the input order, and
what is reported for a run is a prefix of what is reported for any longer run. -/
theorem C02_dedup_properties {κ : Type} [DecidableEq κ] (h : Violation → κ)
    (vs more : List Violation) :
    (removeDuplicates h vs).Nodup ∧
      (∀ v, v ∈ removeDuplicates h vs ↔ v ∈ vs) ∧
      (removeDuplicates h vs).Sublist vs ∧
      removeDuplicates h vs <+: removeDuplicates h (vs ++ more) := by
  simp only [removeDuplicates_eq]
  refine ⟨nodup_firsts vs, fun v => mem_firsts v vs, firsts_sublist vs, ?_⟩
  rw [firsts_append]
  exact List.prefix_append _ _

/-- **C02.** A run without duplicates is left alone; in particular removal is idempotent. -/
theorem C02_dedup_idempotent {κ : Type} [DecidableEq κ] (h : Violation → κ) (vs : List Violation) :
    (vs.Nodup → removeDuplicates h vs = vs) ∧
      removeDuplicates h (removeDuplicates h vs) = removeDuplicates h vs := by
  simp only [removeDuplicates_eq]
  exact ⟨firsts_of_nodup vs, firsts_of_nodup _ (nodup_firsts vs)⟩

/-- **C02.** Two violations are considered the same exactly when all seven fields agree. -/
theorem C02_equality_is_all_fields (a b : Violation) :
    violationEq a b = true ↔
      a.rule = b.rule ∧ a.path = b.path ∧ a.startLine = b.startLine ∧
        a.startColumn = b.startColumn ∧ a.endLine = b.endLine ∧ a.endColumn = b.endColumn ∧
        a.message = b.message := by
  simp [violationEq, and_assoc]

/-- **C02.** The instance used by the code, for whatever hashes the standard library provides. -/
theorem C02_dedup_code_hash (hashPtr : Option RuleId → BitVec 64) (hashStr : Str → BitVec 64)
    (vs : List Violation) :
    removeDuplicates (violationHash hashPtr hashStr) vs = firsts vs :=
  removeDuplicates_eq _ vs

/-- All violations collide under a constant hash; still only the true duplicate goes. -/
example :
    removeDuplicates (fun _ => 0) [exV (some 1) "a.c" "m" 1, exV (some 2) "a.c" "m" 1,
      exV (some 1) "a.c" "m" 1, exV (some 1) "a.c" "m" 2] =
    [exV (some 1) "a.c" "m" 1, exV (some 2) "a.c" "m" 1, exV (some 1) "a.c" "m" 2] := by decide

/-! ## C03 -/

/-- **C03.** Asking questions, in any order and any number, does not change any answer. -/
theorem C03_questions_are_pure {κ : Type} [DecidableEq κ] (h : Violation → κ) (hist : List Step)
    (asks : List Channel) (ch : Channel) :
    answerAfter h (hist ++ asks.map Step.ask) ch = answerAfter h hist ch := by
  induction asks generalizing hist with
  | nil => simp
  | cons a t ih =>
    have key : answerAfter h (hist ++ [Step.ask a]) ch = answerAfter h hist ch := by
      unfold answerAfter
      rw [stateAfter_append]
      simp only [List.foldl_cons, List.foldl_nil, runStep, uniqueAll_answer, uniqueAll_memo]
      by_cases e : ch = a
      · subst e
        simp only [if_true]
        by_cases h1 : UniqueMemo.get (stateAfter h hist).2 ch = [] <;> simp [h1]
      · simp [e]
    rw [← key]
    have : hist ++ List.map Step.ask (a :: t) = (hist ++ [Step.ask a]) ++ t.map Step.ask := by simp
    rw [this]
    exact ih _

/-- **C03.** If no earlier question on the channel was asked while the channel was non-empty, the
answer reflects everything collected so far. -/
theorem C03_fresh_answer {κ : Type} [DecidableEq κ] (h : Violation → κ) (hist : List Step)
    (ch : Channel)
    (hq : ∀ p s, hist = p ++ Step.ask ch :: s → expected ch (eventsOf p) = []) :
    answerAfter h hist ch = firsts (expected ch (eventsOf hist)) := by
  have hmemo : ∀ pre suf, hist = pre ++ suf → (stateAfter h pre).2.get ch = [] := by
    intro pre
    induction pre using List.reverseRecOn with
    | nil => intro suf _; cases ch <;> rfl
    | append_singleton pre a ih =>
      intro suf hs
      have ih' := ih (a :: suf) (by simpa using hs)
      rw [stateAfter_append]
      simp only [List.foldl_cons, List.foldl_nil]
      cases a with
      | event e => exact ih'
      | ask ch' =>
        simp only [runStep, uniqueAll_memo]
        by_cases e : ch = ch'
        · subst e
          rw [if_pos rfl, uniqueAll_answer, ih']
          have he := hq pre suf (by simpa using hs)
          simp only [ne_eq, not_true_eq_false, if_false]
          rw [stateAfter_fst, C01_raw_results_complete, he]
          rfl
        · rw [if_neg e]; exact ih'
  unfold answerAfter
  rw [uniqueAll_answer, hmemo hist [] (by simp)]
  simp only [ne_eq, not_true_eq_false, if_false]
  rw [stateAfter_fst, C01_raw_results_complete]

/-- **C03.** Once a question on a channel was answered with something, that answer is frozen: what
happens later is never reflected. -/
theorem C03_frozen_answer {κ : Type} [DecidableEq κ] (h : Violation → κ) (p s : List Step)
    (ch : Channel) (hne : answerAfter h p ch ≠ []) :
    answerAfter h (p ++ Step.ask ch :: s) ch = answerAfter h p ch := by
  have e : p ++ Step.ask ch :: s = (p ++ [Step.ask ch]) ++ s := by simp
  have hm : (stateAfter h (p ++ [Step.ask ch])).2.get ch = answerAfter h p ch := by
    rw [stateAfter_append]
    simp only [List.foldl_cons, List.foldl_nil, runStep, uniqueAll_memo, if_true]
    rfl
  have hf := memo_frozen h ch s (stateAfter h (p ++ [Step.ask ch])) (by rw [hm]; exact hne)
  rw [hm] at hf
  unfold answerAfter
  rw [uniqueAll_answer, e, stateAfter_append, hf]
  rw [if_pos hne]
  rfl

/-- The hypotheses of `C03_fresh_answer` hold when everything is collected before the first
question, which is how `main` uses the view. -/
example (evs : List Event) :
    answerAfter (fun _ => 0) (evs.map Step.event) .violations = firsts (expected .violations evs) := by
  rw [C03_fresh_answer]
  · congr 1
    simp [eventsOf, List.filterMap_map]
  · intro p s hps
    exfalso
    have : Step.ask Channel.violations ∈ evs.map Step.event := by rw [hps]; simp
    simp at this

/-- **C03, witness of staleness.** A violation collected after the first non-empty answer is
missing from later answers. -/
theorem C03_stale_witness :
    ∃ (hist : List Step) (v : Violation),
      v ∈ expected .violations (eventsOf hist) ∧
        v ∉ answerAfter (κ := Nat) (fun _ => 0) hist .violations := by
  refine ⟨[.event (.unit [exV (some 1) "a.c" "m" 1]), .ask .violations,
    .event (.unit [exV (some 1) "b.c" "m" 1])], exV (some 1) "b.c" "m" 1, ?_, ?_⟩ <;> decide

/-! ## C04 -/

/-- **C04.** Each priority count is the number of violations with a rule of that priority, provided
every violation carries a rule. -/
theorem C04_priority_count (priorityOf : RuleId → Int) (vs : List Violation) (p : Int)
    (hr : ∀ v ∈ vs, v.rule ≠ none) :
    numberOfViolationsWithPriority priorityOf vs p = .ok (countWithPriority priorityOf p vs) := by
  simp [numberOfViolationsWithPriority, countPriorityLoop_eq priorityOf p vs hr]

/-- **C04.** The only way the count can go wrong is a violation without a rule, and then it is
undefined behaviour whatever the priority asked for. -/
theorem C04_priority_count_ub_iff (priorityOf : RuleId → Int) (vs : List Violation) (p : Int) :
    numberOfViolationsWithPriority priorityOf vs p = .ub ↔ ∃ v ∈ vs, v.rule = none := by
  by_cases hr : ∃ v ∈ vs, v.rule = none
  · simp only [hr, iff_true]
    exact countPriorityLoop_ub priorityOf p vs hr 0
  · simp only [hr, iff_false]
    rw [C04_priority_count]
    · simp
    · intro v hv he; exact hr ⟨v, hv, he⟩

/-- **C04.** The counts over any duplicate free list of priorities that covers the rules involved
add up to the total number of violations. -/
theorem C04_priorities_partition (priorityOf : RuleId → Int) (vs : List Violation) (ps : List Int)
    (hps : ps.Nodup) (hcover : ∀ v ∈ vs, ∃ r, v.rule = some r ∧ priorityOf r ∈ ps) :
    (ps.map fun p => countWithPriority priorityOf p vs).sum = vs.length := by
  induction vs with
  | nil =>
    have : ∀ l : List Int, (l.map fun p => countWithPriority priorityOf p []).sum = 0 := by
      intro l; induction l <;> simp_all [countWithPriority]
    simpa using this ps
  | cons v t ih =>
    have iht := ih (fun w hw => hcover w (List.mem_cons_of_mem _ hw))
    obtain ⟨r, hr, hm⟩ := hcover v (by simp)
    have step : ∀ p, countWithPriority priorityOf p (v :: t) =
        (if priorityOf r = p then 1 else 0) + countWithPriority priorityOf p t := by
      intro p
      by_cases e : priorityOf r = p <;>
        simp [countWithPriority, hr, e, Nat.add_comm]
    have hsum : ∀ l : List Int, l.Nodup →
        (l.map fun p => countWithPriority priorityOf p (v :: t)).sum =
          (if priorityOf r ∈ l then 1 else 0) +
            (l.map fun p => countWithPriority priorityOf p t).sum := by
      intro l
      induction l with
      | nil => simp
      | cons q l ihl =>
        intro hl
        rw [List.nodup_cons] at hl
        rw [List.map_cons, List.sum_cons, ihl hl.2, step, List.map_cons, List.sum_cons]
        simp only [List.mem_cons]
        by_cases e : priorityOf r = q
        · subst e; simp [hl.1]; omega
        · simp [e]; omega
    rw [hsum ps hps, iht]
    simp [hm]
    omega

/-- Three violations over priorities 1, 2, 3 (rule 9 has priority 3). -/
example :
    numberOfViolationsWithPriority (fun r => if r = 9 then 3 else 1)
      [exV (some 9) "a" "m" 1, exV (some 4) "a" "m" 1, exV (some 9) "b" "m" 1] 3 = .ok 2 := by
  decide

/-! ## C05 -/

/-- **C05.** The number of files is the number of analysed units. -/
theorem C05_number_of_files (evs : List Event) :
    numberOfFiles (collectorAfter evs) =
      (evs.filter fun e => match e with | .unit _ => true | _ => false).length := by
  suffices h : ∀ c, numberOfFiles (evs.foldl applyEvent c) = numberOfFiles c +
      (evs.filter fun e => match e with | .unit _ => true | _ => false).length by
    simpa [collectorAfter, ResultCollector.empty, numberOfFiles] using h ResultCollector.empty
  induction evs with
  | nil => simp
  | cons e t ih =>
    intro c
    rw [List.foldl_cons, ih]
    cases e <;>
      simp [numberOfFiles, applyEvent, ResultCollector.add, ResultCollector.addError,
        ResultCollector.addWarning, ResultCollector.addCheckerBug]
    omega

/-- **C05.** Of each unit with violations the file of the first one counts, each file once. -/
theorem C05_files_with_violations_are (evs : List Event) :
    numberOfFilesWithViolations (collectorAfter evs) =
      distinctPaths (evs.filterMap fun e => match e with | .unit (v :: _) => some v | _ => none) := by
  rw [numberOfFilesWithViolations_eq]
  unfold distinctPaths
  suffices h : ∀ c : ResultCollector, headPaths (evs.foldl applyEvent c).collection =
      headPaths c.collection ++
        (evs.filterMap fun e => match e with | .unit (v :: _) => some v | _ => none).map
          Violation.path by
    rw [collectorAfter, h]
    rfl
  induction evs with
  | nil => simp
  | cons e t ih =>
    intro c
    rw [List.foldl_cons, ih]
    cases e with
    | unit s =>
      cases s <;> simp [applyEvent, ResultCollector.add, headPaths, List.filterMap_cons]
    | error v => rfl
    | warning v => rfl
    | checkerBug v => rfl

/-- **C05.** Files with violations are at most the files, and at most the distinct violating
paths. -/
theorem C05_files_with_violations_le (c : ResultCollector) :
    numberOfFilesWithViolations c ≤ numberOfFiles c ∧
      numberOfFilesWithViolations c ≤ distinctPaths (rawAll c .violations) := by
  rw [numberOfFilesWithViolations_eq]
  constructor
  · refine (List.toFinset_card_le _).trans ?_
    exact List.length_filterMap_le _ _
  · refine Finset.card_le_card ?_
    intro x hx
    simp only [headPaths, List.mem_toFinset, List.mem_filterMap, Option.map_eq_some_iff] at hx
    obtain ⟨s, hs, v, hv, rfl⟩ := hx
    simp only [rawAll, collectAll_eq, List.mem_toFinset, List.mem_map]
    exact ⟨v, List.mem_flatten.2 ⟨s, hs, List.mem_of_head? hv⟩, rfl⟩

/-- **C05.** No file is counted exactly when nothing was reported. -/
theorem C05_files_with_violations_zero_iff (c : ResultCollector) :
    numberOfFilesWithViolations c = 0 ↔ rawAll c .violations = [] := by
  rw [numberOfFilesWithViolations_eq, Finset.card_eq_zero, List.toFinset_eq_empty_iff]
  simp only [rawAll, collectAll_eq, headPaths, List.filterMap_eq_nil_iff, List.flatten_eq_nil_iff,
    Option.map_eq_none_iff, List.head?_eq_none_iff]

/-- **C05.** If every unit only has violations in a single file, the count is the number of distinct
paths with violations. -/
theorem C05_files_with_violations_exact (c : ResultCollector)
    (hone : ∀ s ∈ c.collection, ∀ v ∈ s, ∀ w ∈ s, v.path = w.path) :
    numberOfFilesWithViolations c = distinctPaths (rawAll c .violations) := by
  rw [numberOfFilesWithViolations_eq]
  unfold distinctPaths
  congr 1
  ext x
  simp only [headPaths, List.mem_toFinset, List.mem_filterMap, Option.map_eq_some_iff, rawAll,
    collectAll_eq, List.mem_map]
  constructor
  · rintro ⟨s, hs, v, hv, rfl⟩
    exact ⟨v, List.mem_flatten.2 ⟨s, hs, List.mem_of_head? hv⟩, rfl⟩
  · rintro ⟨v, hv, rfl⟩
    obtain ⟨s, hs, hvs⟩ := List.mem_flatten.1 hv
    cases s with
    | nil => simp at hvs
    | cons w rest => exact ⟨_, hs, w, rfl, hone _ hs w (by simp) v hvs⟩

example : numberOfFilesWithViolations
    ⟨[[exV (some 1) "a.c" "m" 1, exV (some 1) "a.c" "m" 2], [], [exV (some 1) "b.c" "m" 1],
      [exV (some 1) "a.c" "n" 1]], [], [], []⟩ = 2 := by decide

/-- **C05, witness of the undercount.** A unit with violations in its source and in a header is
counted as one file. -/
theorem C05_undercount_witness :
    ∃ c : ResultCollector,
      numberOfFilesWithViolations c < distinctPaths (rawAll c .violations) :=
  ⟨⟨[[exV (some 1) "a.c" "m" 1, exV (some 1) "a.h" "m" 1]], [], [], []⟩, by decide⟩

/-! ## C10 -/

/-- **C10.** After any sequence of reports through the carrier the set contains, in order, exactly
the reports with a file path. -/
theorem C10_carrier_records (s : ViolationSet) (reports : List Violation) :
    reports.foldl (fun s v => carrierAddViolation s v.path v.startLine v.startColumn v.endLine
        v.endColumn v.rule v.message) s =
      s ++ reports.filter fun v => decide (v.path ≠ []) := by
  induction reports generalizing s with
  | nil => simp
  | cons v t ih =>
    rw [List.foldl_cons, ih]
    by_cases h : v.path = []
    · simp [carrierAddViolation, h]
    · simp [carrierAddViolation, h, ViolationSet.addViolation]

/-- The middle report has no file and is dropped. -/
example :
    [exV (some 1) "a.c" "m" 1, exV (some 1) "" "m" 2, exV (some 2) "a.c" "k" 9].foldl
      (fun s v => carrierAddViolation s v.path v.startLine v.startColumn v.endLine
        v.endColumn v.rule v.message) [] =
    [exV (some 1) "a.c" "m" 1, exV (some 2) "a.c" "k" 9] := by decide

end Oclint
