import Verif.Lemmas.ReadJson

/-!
# C55, C56, C58: the JSON report

For results whose texts contain no quote, backslash or control character the report is JSON and
reads back as exactly the collected results; otherwise it need not be JSON.
-/

namespace Oclint
open Spec

/-- The texts of a violation mean themselves in JSON strings. -/
def JsonClean (info : RuleId → RuleInfo) (v : Violation) : Prop :=
  JsonSafe v.path ∧ JsonSafe v.message ∧
    ∀ r, v.rule = some r → JsonSafe (info r).name ∧ JsonSafe (info r).category

theorem jsonViolation_run (info : RuleId → RuleInfo) (v : Violation) (h : JsonClean info v)
    (r : Str) (st : List JCtx) :
    jsonRun (.value, st) (jsonViolation info v ++ r) =
      jsonRun (.after (violationJson info v), st) r := by
  obtain ⟨hp, hm, hr⟩ := h
  unfold jsonViolation violationJson
  simp only [List.append_assoc, List.cons_append, List.nil_append]
  rw [jsonRun_cons]
  show jsonRun (.keyOrEnd, .obj [] :: st) _ = _
  rw [jsonRun_open _ _ (jsonKeyString_head _ _ _ _),
    jsonRun_keyString _ _ _ (jsonSafe_of _ (by decide)) hp,
    jsonRun_keyInt _ _ _ (jsonSafe_of _ (by decide)),
    jsonRun_keyInt _ _ _ (jsonSafe_of _ (by decide))]
  unfold jsonEnd jsonRule
  split_ifs
  · cases hv : v.rule with
    | none =>
      simp only [List.append_assoc, List.cons_append, List.nil_append]
      rw [jsonRun_keyInt _ _ _ (jsonSafe_of _ (by decide)),
        jsonRun_keyInt _ _ _ (jsonSafe_of _ (by decide)),
        jsonRun_keyStringLast _ _ _ (jsonSafe_of _ (by decide)) hm]
      simp only [List.append_assoc, List.cons_append, List.nil_append]
    | some i =>
      simp only [List.append_assoc, List.cons_append, List.nil_append]
      rw [jsonRun_keyInt _ _ _ (jsonSafe_of _ (by decide)),
        jsonRun_keyInt _ _ _ (jsonSafe_of _ (by decide)),
        jsonRun_keyString _ _ _ (jsonSafe_of _ (by decide)) (hr i hv).1,
        jsonRun_keyString _ _ _ (jsonSafe_of _ (by decide)) (hr i hv).2,
        jsonRun_keyInt _ _ _ (jsonSafe_of _ (by decide)),
        jsonRun_keyStringLast _ _ _ (jsonSafe_of _ (by decide)) hm]
      simp only [List.append_assoc, List.cons_append, List.nil_append]
  · cases hv : v.rule with
    | none =>
      simp only [List.append_assoc, List.cons_append, List.nil_append]
      rw [jsonRun_keyStringLast _ _ _ (jsonSafe_of _ (by decide)) hm]
      simp only [List.append_assoc, List.cons_append, List.nil_append]
    | some i =>
      simp only [List.append_assoc, List.cons_append, List.nil_append]
      rw [jsonRun_keyString _ _ _ (jsonSafe_of _ (by decide)) (hr i hv).1,
        jsonRun_keyString _ _ _ (jsonSafe_of _ (by decide)) (hr i hv).2,
        jsonRun_keyInt _ _ _ (jsonSafe_of _ (by decide)),
        jsonRun_keyStringLast _ _ _ (jsonSafe_of _ (by decide)) hm]
      simp only [List.append_assoc, List.cons_append, List.nil_append]

theorem jsonViolations_tail (info : RuleId → RuleInfo) (vs : List Violation)
    (h : ∀ v ∈ vs, JsonClean info v) (r : Str) (st : List JCtx) :
    ∀ n done x, n ≠ 0 →
      jsonRun (.after x, .arr done :: st) (jsonViolations info n vs ++ (']' :: r)) =
        jsonRun (.after (.arr (done ++ x :: vs.map (violationJson info))), st) r := by
  induction vs with
  | nil => intro n done x hn; rfl
  | cons v vs ih =>
    intro n done x hn
    rw [jsonViolations, if_pos hn]
    simp only [List.append_assoc, List.cons_append, List.nil_append]
    rw [jsonRun_after]
    show jsonRun (.value, .arr (done ++ [x]) :: st) _ = _
    rw [jsonViolation_run info v (h v (by simp)), ih (fun w hw => h w (by simp [hw])) _ _ _ (by simp)]
    simp

theorem jsonViolation_head (info : RuleId → RuleInfo) (v : Violation) (r : Str) :
    (jsonViolation info v ++ r).head? = some '{' := by
  unfold jsonViolation
  simp only [List.append_assoc, List.cons_append, List.nil_append, List.head?_cons]

theorem jsonRun_first (r : Str) (done : List Json) (st : List JCtx) (h : r.head? = some '{') :
    jsonRun (.valueOrEnd, .arr done :: st) r = jsonRun (.value, .arr done :: st) r := by
  cases r with
  | nil => simp at h
  | cons c r => simp at h; subst h; rfl

/-- A list of violations in brackets. -/
theorem jsonViolations_run (info : RuleId → RuleInfo) (vs : List Violation)
    (h : ∀ v ∈ vs, JsonClean info v) (r : Str) (st : List JCtx) :
    jsonRun (.value, st) ('[' :: (jsonViolations info 0 vs ++ (']' :: r))) =
      jsonRun (.after (.arr (vs.map (violationJson info))), st) r := by
  rw [jsonRun_cons]
  show jsonRun (.valueOrEnd, .arr [] :: st) _ = _
  cases vs with
  | nil => rfl
  | cons v vs =>
    rw [jsonViolations, if_neg (by simp), List.nil_append, List.append_assoc,
      jsonRun_first _ _ _ (jsonViolation_head _ _ _), jsonViolation_run info v (h v (by simp)),
      jsonViolations_tail info vs (fun w hw => h w (by simp [hw])) _ _ _ _ _ (by simp)]
    rfl

theorem priorityTotal_eq (info : RuleId → RuleInfo) (w : ResultsView) (p : Int)
    (h : ∀ v ∈ w.answer .violations, v.rule ≠ none) :
    priorityTotal info w p =
      .ok (countWithPriority (fun r => (info r).priority) p (w.answer .violations)) := by
  unfold priorityTotal numberOfViolationsWithPriority
  rw [countPriorityLoop_eq _ _ _ h]
  simp

theorem jsonPriority_eq (info : RuleId → RuleInfo) (w : ResultsView) (p : Int)
    (h : ∀ v ∈ w.answer .violations, v.rule ≠ none) :
    jsonPriority info w p = .ok (['{'] ++ jsonKeyInt "priority".toList p false
      ++ jsonKeyInt "number".toList
        (countWithPriority (fun r => (info r).priority) p (w.answer .violations)) true ++ ['}']) := by
  unfold jsonPriority
  rw [priorityTotal_eq info w p h]
  rfl

/-- One entry of the priority table. -/
theorem jsonPriority_run (p n : Int) (r : Str) (st : List JCtx) :
    jsonRun (.value, st) (['{'] ++ jsonKeyInt "priority".toList p false
      ++ jsonKeyInt "number".toList n true ++ ['}'] ++ r) =
      jsonRun (.after (.obj [("priority".toList, .num p), ("number".toList, .num n)]), st) r := by
  simp only [List.append_assoc, List.cons_append, List.nil_append]
  rw [jsonRun_cons]
  show jsonRun (.keyOrEnd, .obj [] :: st) _ = _
  rw [jsonRun_open _ _ (jsonKeyInt_head _ _ _ _),
    jsonRun_keyInt _ _ _ (jsonSafe_of _ (by decide)),
    jsonRun_keyIntLast _ _ _ (jsonSafe_of _ (by decide))]
  rfl

theorem jsonPriority_head (p n : Int) (r : Str) :
    (['{'] ++ jsonKeyInt "priority".toList p false
      ++ jsonKeyInt "number".toList n true ++ ['}'] ++ r).head? = some '{' := by
  simp only [List.append_assoc, List.cons_append, List.nil_append, List.head?_cons]

theorem jsonRun_brace (r : Str) (st : List JCtx) (h : r.head? = some '"') :
    jsonRun (.value, st) ('{' :: r) = jsonRun (.key, .obj [] :: st) r := by
  rw [← jsonRun_open r st h]; rfl

theorem jsonRun_bracket (r : Str) (st : List JCtx) (h : r.head? = some '{') :
    jsonRun (.value, st) ('[' :: r) = jsonRun (.value, .arr [] :: st) r := by
  rw [← jsonRun_first r [] st h]; rfl

theorem jsonRun_memberComma (v : Json) (done : List (Str × Json)) (k r : Str) (st : List JCtx) :
    jsonRun (.after v, .member done k :: st) (',' :: r) =
      jsonRun (.key, .obj (done ++ [(k, v)]) :: st) r := rfl

theorem jsonRun_memberBrace (v : Json) (done : List (Str × Json)) (k r : Str) (st : List JCtx) :
    jsonRun (.after v, .member done k :: st) ('}' :: r) =
      jsonRun (.after (.obj (done ++ [(k, v)])), st) r := rfl

theorem jsonRun_itemComma (v : Json) (done : List Json) (r : Str) (st : List JCtx) :
    jsonRun (.after v, .arr done :: st) (',' :: r) = jsonRun (.value, .arr (done ++ [v]) :: st) r := rfl

theorem jsonRun_itemBracket (v : Json) (done : List Json) (r : Str) (st : List JCtx) :
    jsonRun (.after v, .arr done :: st) (']' :: r) = jsonRun (.after (.arr (done ++ [v])), st) r := rfl

theorem jsonRun_newline (v : Json) (st : List JCtx) :
    jsonRun (.after v, st) ['\n'] = some (.after v, st) := rfl

theorem readJson_of (s : Str) (v : Json) (h : jsonRun (.value, []) s = some (.after v, [])) :
    readJson s = some v := by
  unfold readJson
  rw [h]

/-- **C55, C56, C58 (JSON).** If no text contains a quote, backslash or control character, the report
is JSON and reads back as: version, url, time stamp, the totals, then one object per violation and
one per checker finding, in order, each with all its fields. -/
theorem C55_json_reads_back_partial (info : RuleId → RuleInfo) (now : Int) (w : ResultsView)
    (hrule : ∀ v ∈ w.answer .violations, v.rule ≠ none)
    (hv : ∀ v ∈ w.answer .violations, JsonClean info v)
    (hb : ∀ v ∈ w.answer .checkerBugs, JsonClean info v) :
    ∃ s, jsonReport info now w = .ok s ∧
      readJson s = some (reportJson info (toInt32 now) (numberOfFiles w.collector)
        (numberOfFilesWithViolations w.collector) (w.answer .violations)
        (w.answer .checkerBugs)) := by
  unfold jsonReport jsonSummary
  rw [jsonPriority_eq info w 1 hrule, jsonPriority_eq info w 2 hrule, jsonPriority_eq info w 3 hrule]
  simp only [bind_ok', Outcome.pure_eq]
  refine ⟨_, rfl, readJson_of _ _ ?_⟩
  unfold reportJson priorityJson jsonHeader versionText homepageText endl
  generalize countWithPriority (fun r => (info r).priority) 1 (w.answer .violations) = n1
  generalize countWithPriority (fun r => (info r).priority) 2 (w.answer .violations) = n2
  generalize countWithPriority (fun r => (info r).priority) 3 (w.answer .violations) = n3
  have run := fun (p n : Int) (r : Str) (st : List JCtx) => jsonPriority_run p n r st
  have head := fun (p n : Int) (r : Str) => jsonPriority_head p n r
  simp only [List.append_assoc, List.cons_append, List.nil_append] at run head ⊢
  rw [jsonRun_brace _ _ (jsonKeyString_head _ _ _ _),
    jsonRun_keyString _ _ _ (jsonSafe_of _ (by decide)) (jsonSafe_of _ (by decide)),
    jsonRun_keyString _ _ _ (jsonSafe_of _ (by decide)) (jsonSafe_of _ (by decide)),
    jsonRun_keyInt _ _ _ (jsonSafe_of _ (by decide)),
    jsonRun_key _ _ (jsonSafe_of _ (by decide)),
    jsonRun_brace _ _ (jsonKeyInt_head _ _ _ _),
    jsonRun_keyInt _ _ _ (jsonSafe_of _ (by decide)),
    jsonRun_keyInt _ _ _ (jsonSafe_of _ (by decide)),
    jsonRun_key _ _ (jsonSafe_of _ (by decide)),
    jsonRun_bracket _ _ (head _ _ _), run, jsonRun_itemComma, run, jsonRun_itemComma, run,
    jsonRun_itemBracket, jsonRun_memberBrace, jsonRun_memberComma,
    jsonRun_key _ _ (jsonSafe_of _ (by decide)), jsonViolations_run info _ hv, jsonRun_memberComma,
    jsonRun_key _ _ (jsonSafe_of _ (by decide)), jsonViolations_run info _ hb, jsonRun_memberBrace,
    jsonRun_newline]
  simp only [List.append_assoc, List.cons_append, List.nil_append]

end Oclint
