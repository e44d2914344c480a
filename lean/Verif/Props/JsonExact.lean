import Verif.Lemmas.JsonWeight
import Verif.Props.ReportLimits

/-!
# C55: which JSON reports can be read back

A text that was written without escapes is too short to be the text of itself as soon as it has a
character that would need one.
-/

namespace Oclint
open Spec

/-- Every character has length one. -/
def plainLength (_ : Char) : Nat := 1

theorem weigh_plain (s : Str) : weigh plainLength s = s.length := by
  induction s with
  | nil => rfl
  | cons c s ih =>
    rw [weigh_cons, ih, List.length_cons]
    unfold plainLength
    omega

theorem weigh_json (s : Str) : s.length ≤ weigh jsonLength s := by
  induction s with
  | nil => simp
  | cons c s ih =>
    rw [weigh_cons, List.length_cons]
    have : 1 ≤ jsonLength c := by
      unfold jsonLength
      split <;> omega
    omega

theorem weigh_safe (s : Str) : weigh jsonLength s ≤ s.length ↔ JsonSafe s := by
  induction s with
  | nil =>
    unfold JsonSafe
    simp [weigh]
  | cons c s ih =>
    have h1 := weigh_json s
    unfold JsonSafe at ih ⊢
    rw [weigh_cons, List.length_cons, List.forall_mem_cons, ← ih]
    by_cases h : c = '"' ∨ c = '\\' ∨ c.toNat < 32
    · have hc : jsonLength c = 2 := if_pos h
      rw [hc]
      constructor
      · intro h'
        omega
      · rintro ⟨⟨e1, e2, e3⟩, -⟩
        rcases h with h | h | h
        · exact absurd h e1
        · exact absurd h e2
        · omega
    · have hc : jsonLength c = 1 := if_neg h
      rw [hc]
      constructor
      · intro h'
        exact ⟨⟨fun e => h (.inl e), fun e => h (.inr (.inl e)), by
          by_contra e
          exact h (.inr (.inr (by omega)))⟩, by omega⟩
      · rintro ⟨-, h'⟩
        omega

theorem weigh_key (s : String) (h : s.toList.all (fun c => decide (jsonLength c = 1)) = true) :
    weigh jsonLength s.toList = s.toList.length := by
  generalize s.toList = l at h
  induction l with
  | nil => rfl
  | cons c l ih =>
    simp only [List.all_cons, Bool.and_eq_true, decide_eq_true_eq] at h
    rw [weigh_cons, ih h.2, h.1, List.length_cons]
    omega

theorem weightMembers_append' (f : Char → Nat) (l m : List (Str × Json)) :
    weightMembers f (l ++ m) = weightMembers f l + weightMembers f m := by
  induction l with
  | nil => simp [weightMembers]
  | cons a l ih =>
    obtain ⟨k, v⟩ := a
    rw [List.cons_append, weightMembers, weightMembers, ih]
    omega

theorem weight_object (f : Char → Nat) (m : Str × Json) (l : List (Str × Json)) :
    weight f (.obj (m :: l)) = 1 + weightMembers f (m :: l) := by
  rw [weight]

theorem jsonKeyString_length (key value : Str) (last : Bool) :
    (jsonKeyString key value last).length =
      key.length + value.length + 5 + if last then 0 else 1 := by
  unfold jsonKeyString jsonKey jsonComma
  cases last <;> simp <;> omega

theorem jsonKeyInt_length (key : Str) (value : Int) (last : Bool) :
    (jsonKeyInt key value last).length =
      key.length + (decimalInt value).length + 3 + if last then 0 else 1 := by
  unfold jsonKeyInt jsonKey jsonComma
  rw [toStringInt_eq]
  cases last <;> simp <;> omega

/-- What is written for a violation is as long as its text would be without escapes. -/
theorem jsonViolation_length (info : RuleId → RuleInfo) (v : Violation) :
    (jsonViolation info v).length = weight plainLength (violationJson info v) := by
  have hend : (jsonEnd v).length = weightMembers plainLength
      (if v.endLine ≠ 0 ∧ v.endColumn ≠ 0 then
        [("endLine".toList, .num v.endLine), ("endColumn".toList, .num v.endColumn)] else []) := by
    unfold jsonEnd
    split
    · simp only [List.length_append, jsonKeyInt_length, weightMembers, weigh_plain, weight,
        Bool.false_eq_true, if_false]
      omega
    · simp [weightMembers]
  unfold jsonViolation violationJson
  simp only [List.cons_append]
  rw [weight_object]
  simp only [← List.cons_append, weightMembers_append', ← hend]
  unfold jsonRule
  cases v.rule with
  | none =>
    simp only [List.length_append, jsonKeyInt_length, jsonKeyString_length, weightMembers, weigh_plain,
      weight, Bool.false_eq_true, if_false, if_true, List.length_cons, List.length_nil]
    omega
  | some r =>
    simp only [List.length_append, jsonKeyInt_length, jsonKeyString_length, weightMembers, weigh_plain,
      weight, Bool.false_eq_true, if_false, if_true, List.length_cons, List.length_nil]
    omega

/-- A violation's text is at least that long, and exactly that long if no character needs an escape. -/
theorem violationJson_weight (info : RuleId → RuleInfo) (v : Violation) :
    weight plainLength (violationJson info v) ≤ weight jsonLength (violationJson info v) ∧
      (weight jsonLength (violationJson info v) ≤ weight plainLength (violationJson info v) ↔
        JsonClean info v) := by
  have hp := weigh_json v.path
  have hm := weigh_json v.message
  have hkey : ∀ f, weight f (violationJson info v) = weight f (violationJson info v) := fun _ => rfl
  have k1 := weigh_key "path" (by decide +kernel)
  have k2 := weigh_key "startLine" (by decide +kernel)
  have k3 := weigh_key "startColumn" (by decide +kernel)
  have k4 := weigh_key "endLine" (by decide +kernel)
  have k5 := weigh_key "endColumn" (by decide +kernel)
  have k6 := weigh_key "rule" (by decide +kernel)
  have k7 := weigh_key "category" (by decide +kernel)
  have k8 := weigh_key "priority" (by decide +kernel)
  have k9 := weigh_key "message" (by decide +kernel)
  unfold violationJson JsonClean
  simp only [List.cons_append]
  rw [weight_object, weight_object]
  simp only [← List.cons_append, weightMembers_append']
  have hend : weightMembers jsonLength
      (if v.endLine ≠ 0 ∧ v.endColumn ≠ 0 then
        [("endLine".toList, .num v.endLine), ("endColumn".toList, .num v.endColumn)] else []) =
      weightMembers plainLength
      (if v.endLine ≠ 0 ∧ v.endColumn ≠ 0 then
        [("endLine".toList, .num v.endLine), ("endColumn".toList, .num v.endColumn)] else []) := by
    split
    · simp only [weightMembers, weigh_plain, weight, k4, k5]
    · rfl
  rw [hend]
  cases hr : v.rule with
  | none =>
    simp only [weightMembers, weigh_plain, weight, k1, k2, k3, k9, ← weigh_safe]
    refine ⟨by omega, ⟨fun h => ⟨by omega, by omega, nofun⟩, fun h => by omega⟩⟩
  | some r =>
    have hn := weigh_json (info r).name
    have hc := weigh_json (info r).category
    have hall : (∀ r', some r = some r' → JsonSafe (info r').name ∧ JsonSafe (info r').category) ↔
        weigh jsonLength (info r).name ≤ (info r).name.length ∧
          weigh jsonLength (info r).category ≤ (info r).category.length := by
      rw [weigh_safe, weigh_safe]
      constructor
      · exact fun h => h r rfl
      · intro h r' e
        cases e
        exact h
    rw [hall]
    simp only [weightMembers, weigh_plain, weight, k1, k2, k3, k6, k7, k8, k9, ← weigh_safe]
    refine ⟨by omega, ⟨fun h => ⟨by omega, by omega, by omega, by omega⟩, fun h => by omega⟩⟩

theorem jsonViolations_length (info : RuleId → RuleInfo) (vs : List Violation) : ∀ n, n ≠ 0 →
    (jsonViolations info n vs).length + 1 =
      weightItems plainLength (vs.map (violationJson info)) + 1 := by
  induction vs with
  | nil =>
    intro n _
    simp [jsonViolations, weightItems]
  | cons v vs ih =>
    intro n hn
    have := ih (n + 1) (by omega)
    rw [jsonViolations, if_pos hn, List.map_cons, weightItems]
    simp only [List.length_append, jsonViolation_length, List.length_cons, List.length_nil]
    omega

/-- The same for an array of violations. -/
theorem jsonArray_length (info : RuleId → RuleInfo) (vs : List Violation) :
    (jsonViolations info 0 vs).length + 2 = weight plainLength (.arr (vs.map (violationJson info))) := by
  cases vs with
  | nil => simp [jsonViolations, weight]
  | cons v vs =>
    have := jsonViolations_length info vs (0 + 1) (by omega)
    rw [jsonViolations, if_neg (by simp), List.map_cons, weight, weightItems]
    simp only [List.length_append, jsonViolation_length, List.length_nil]
    omega

theorem violationsJson_weight (info : RuleId → RuleInfo) (vs : List Violation) :
    weight plainLength (.arr (vs.map (violationJson info))) ≤
        weight jsonLength (.arr (vs.map (violationJson info))) ∧
      (weight jsonLength (.arr (vs.map (violationJson info))) ≤
        weight plainLength (.arr (vs.map (violationJson info))) ↔ ∀ v ∈ vs, JsonClean info v) := by
  have hitems : weightItems plainLength (vs.map (violationJson info)) ≤
        weightItems jsonLength (vs.map (violationJson info)) ∧
      (weightItems jsonLength (vs.map (violationJson info)) ≤
        weightItems plainLength (vs.map (violationJson info)) ↔ ∀ v ∈ vs, JsonClean info v) := by
    induction vs with
    | nil => simp [weightItems]
    | cons v vs ih =>
      obtain ⟨h1, h2⟩ := ih
      obtain ⟨g1, g2⟩ := violationJson_weight info v
      rw [List.map_cons, weightItems, weightItems, List.forall_mem_cons, ← h2, ← g2]
      omega
  cases vs with
  | nil => simp [weight]
  | cons v vs =>
    rw [List.map_cons] at hitems ⊢
    rw [weight, weight, ← hitems.2]
    omega

/-- An object is complete before the newline after it. -/
theorem readJson_newline (t : Str) (ms : List (Str × Json)) (h : readJson (t ++ ['\n']) = some (.obj ms)) :
    jsonRun (.value, []) t = some (.after (.obj ms), []) := by
  unfold readJson at h
  rw [jsonRun_append] at h
  cases hr : jsonRun (.value, []) t with
  | none =>
    rw [hr] at h
    cases h
  | some st =>
    rw [hr] at h
    have hone : ∀ st, jsonRun st ['\n'] = jsonStep '\n' st := by
      intro st
      rw [jsonRun]
      cases jsonStep '\n' st <;> rfl
    simp only [Option.bind_some, hone] at h
    obtain ⟨mode, stack⟩ := st
    cases mode with
    | value => cases h
    | valueOrEnd => cases h
    | key => cases h
    | keyOrEnd => cases h
    | colon k => cases h
    | str isKey acc => cases h
    | esc isKey acc => cases h
    | uni isKey acc hex =>
      by_cases hl : hex.length = 3
      · simp only [jsonStep, if_pos hl] at h
        cases hv : hexValue ('\n' :: hex) with
        | none =>
          rw [hv] at h
          cases h
        | some n =>
          rw [hv] at h
          cases h
      · simp only [jsonStep, if_neg hl] at h
        cases h
    | num acc =>
      have hs : jsonStep '\n' (.num acc, stack) = (jsonNumber acc.reverse).map fun z =>
          (.after (.num z), stack) := by
        simp only [jsonStep]
        rw [if_neg (by decide)]
        cases jsonNumber acc.reverse <;> rfl
      rw [hs] at h
      cases hz : jsonNumber acc.reverse with
      | none =>
        rw [hz] at h
        cases h
      | some z =>
        rw [hz] at h
        cases stack <;> cases h
    | after v =>
      have hs : jsonStep '\n' (.after v, stack) = some (.after v, stack) := rfl
      rw [hs] at h
      cases stack with
      | nil =>
        cases h
        rfl
      | cons a l => cases h

/-- **C55 (JSON).** The report reads back as what it is about exactly if no text of a violation or an
analyzer finding has a quote, backslash or control character. -/
theorem C55_json_exact (info : RuleId → RuleInfo) (now : Int) (w : ResultsView)
    (hrule : ∀ v ∈ w.answer .violations, v.rule ≠ none) :
    (∃ s, jsonReport info now w = .ok s ∧
      readJson s = some (reportJson info (toInt32 now) (numberOfFiles w.collector)
        (numberOfFilesWithViolations w.collector) (w.answer .violations)
        (w.answer .checkerBugs))) ↔
    (∀ v ∈ w.answer .violations, JsonClean info v) ∧ ∀ v ∈ w.answer .checkerBugs, JsonClean info v := by
  refine ⟨?_, fun h => C55_json_reads_back_partial info now w hrule h.1 h.2⟩
  rintro ⟨s, hs, hread⟩
  obtain ⟨t, rfl, hlen⟩ : ∃ t, s = t ++ ['\n'] ∧ t.length =
      weight plainLength (reportJson info (toInt32 now) (numberOfFiles w.collector)
        (numberOfFilesWithViolations w.collector) (w.answer .violations) (w.answer .checkerBugs)) := by
    unfold jsonReport jsonSummary at hs
    rw [jsonPriority_eq info w 1 hrule, jsonPriority_eq info w 2 hrule, jsonPriority_eq info w 3 hrule]
      at hs
    simp only [bind_ok', Outcome.pure_eq, Outcome.ok.injEq] at hs
    refine ⟨_, hs.symm, ?_⟩
    unfold reportJson priorityJson jsonHeader versionText homepageText jsonKey
    have h1 := jsonArray_length info (w.answer .violations)
    have h2 := jsonArray_length info (w.answer .checkerBugs)
    rw [weight_object]
    simp only [weightMembers, weigh_plain]
    rw [← h1, ← h2]
    simp only [weight, weightMembers, weightItems, weigh_plain, List.length_append, jsonKeyInt_length,
      jsonKeyString_length, List.length_cons, List.length_nil, Bool.false_eq_true, if_false, if_true]
    omega
  have hle := jsonRun_weight t _ _ (readJson_newline t _ hread)
  have hstart : weightState (.value, []) = 0 := rfl
  rw [hstart, hlen] at hle
  have hend : ∀ v, weightState (.after v, []) = weight jsonLength v := fun v => by
    simp [weightState, weightMode]
  rw [hend] at hle
  obtain ⟨h1, h1'⟩ := violationsJson_weight info (w.answer .violations)
  obtain ⟨h2, h2'⟩ := violationsJson_weight info (w.answer .checkerBugs)
  rw [← h1', ← h2']
  generalize w.answer .violations = vs at *
  generalize w.answer .checkerBugs = bs at *
  have k := fun (s : String) h => weigh_key s h
  unfold reportJson priorityJson at hle
  rw [weight_object, weight_object] at hle
  simp only [weightMembers, weigh_plain, Nat.zero_add] at hle
  rw [k "version" (by decide +kernel), k "url" (by decide +kernel), k "timestamp" (by decide +kernel),
    k "summary" (by decide +kernel), k "violation" (by decide +kernel),
    k "clangStaticAnalyzer" (by decide +kernel)] at hle
  generalize weight jsonLength (.arr (vs.map (violationJson info))) = a at *
  generalize weight jsonLength (.arr (bs.map (violationJson info))) = b at *
  generalize weight plainLength (.arr (vs.map (violationJson info))) = a' at *
  generalize weight plainLength (.arr (bs.map (violationJson info))) = b' at *
  simp only [weight, weightMembers, weightItems, weigh_plain] at hle
  rw [k "24.11" (by decide +kernel), k "https://oclint.org" (by decide +kernel),
    k "numberOfFiles" (by decide +kernel), k "numberOfFilesWithViolations" (by decide +kernel),
    k "numberOfViolationsWithPriority" (by decide +kernel), k "priority" (by decide +kernel),
    k "number" (by decide +kernel)] at hle
  omega

/-- A backslash in a message is lost even if the report is JSON. -/
example : (∃ s, jsonReport sampleInfo 0 (sampleView "a.m" "use \\n here") = .ok s ∧
      (readJson s).isSome = true) ∧
    ¬ ∃ s, jsonReport sampleInfo 0 (sampleView "a.m" "use \\n here") = .ok s ∧
      readJson s = some (reportJson sampleInfo 0 0 0
        ((sampleView "a.m" "use \\n here").answer .violations) []) := by
  constructor
  · exact ⟨_, rfl, by decide +kernel⟩
  · intro h
    have hc := ((C55_json_exact sampleInfo 0 (sampleView "a.m" "use \\n here") (by
      intro v hv
      rw [List.mem_singleton.1 hv]
      exact nofun)).1 h).1 _ (List.mem_singleton.2 rfl)
    exact (hc.2.1 '\\' (by decide +kernel)).2.1 rfl

end Oclint
