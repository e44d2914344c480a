import Verif.Props.ReportLimits
import Verif.Spec.ReportTotals

/-!
# C58: totals of the JSON, XML and HTML reports

The numbers in the summary against the records of the same report, both as a reader finds them in the
written text.
-/

namespace Oclint
open Spec

/-- All rules that reported have one of the three priorities. -/
def Spec.Prioritised (info : RuleId → RuleInfo) (vs : List Violation) : Prop :=
  ∀ v ∈ vs, ∀ r, v.rule = some r →
    (info r).priority = 1 ∨ (info r).priority = 2 ∨ (info r).priority = 3

theorem countWithPriority_sum (info : RuleId → RuleInfo) (vs : List Violation)
    (hr : ∀ v ∈ vs, v.rule ≠ none) (hp : Prioritised info vs) :
    countWithPriority (fun r => (info r).priority) 1 vs
      + countWithPriority (fun r => (info r).priority) 2 vs
      + countWithPriority (fun r => (info r).priority) 3 vs = vs.length := by
  unfold countWithPriority
  induction vs with
  | nil => rfl
  | cons v vs ih =>
    have := ih (fun u hu => hr u (by simp [hu])) (fun u hu => hp u (by simp [hu]))
    cases e : v.rule with
    | none => exact absurd e (hr v (by simp))
    | some r =>
      rcases hp v (by simp) r e with h | h | h <;>
        simp [e, h] at this ⊢ <;> omega

theorem filter_length_map {α β : Type} (f : α → β) (p : β → Bool) (l : List α) :
    ((l.map f).filter p).length = (l.filter fun a => p (f a)).length := by
  rw [List.filter_map, List.length_map]; rfl

/-! ## JSON -/

theorem member_obj (key : Str) (l : List (Str × Json)) :
    (Json.obj l).member key = (l.find? fun e => decide (e.1 = key)).map (·.2) := rfl

theorem find_key_skip {α : Type} (key k : Str) (v : α) (l : List (Str × α)) (h : k ≠ key) :
    List.find? (fun e : Str × α => decide (e.1 = key)) ((k, v) :: l)
      = List.find? (fun e : Str × α => decide (e.1 = key)) l := by
  rw [List.find?_cons_of_neg]; simpa using h

theorem find_key_here {α : Type} (key : Str) (v : α) (l : List (Str × α)) :
    List.find? (fun e : Str × α => decide (e.1 = key)) ((key, v) :: l) = some (key, v) := by
  rw [List.find?_cons_of_pos]; simp

theorem violationJson_priority (info : RuleId → RuleInfo) (v : Violation) :
    (violationJson info v).priority = v.rule.map fun r => (info r).priority := by
  have n1 : "path".toList ≠ "priority".toList := by decide
  have n2 : "startLine".toList ≠ "priority".toList := by decide
  have n3 : "startColumn".toList ≠ "priority".toList := by decide
  have n4 : "endLine".toList ≠ "priority".toList := by decide
  have n5 : "endColumn".toList ≠ "priority".toList := by decide
  have n6 : "rule".toList ≠ "priority".toList := by decide
  have n7 : "category".toList ≠ "priority".toList := by decide
  have n8 : "message".toList ≠ "priority".toList := by decide
  unfold Json.priority violationJson Json.member
  generalize "path".toList = a1 at n1 ⊢
  generalize "startLine".toList = a2 at n2 ⊢
  generalize "startColumn".toList = a3 at n3 ⊢
  generalize "endLine".toList = a4 at n4 ⊢
  generalize "endColumn".toList = a5 at n5 ⊢
  generalize "rule".toList = a6 at n6 ⊢
  generalize "category".toList = a7 at n7 ⊢
  generalize "message".toList = a8 at n8 ⊢
  generalize "priority".toList = k at *
  cases v.rule <;> split_ifs <;>
    simp [*, Json.number]

/-- **C58 (JSON).** In the document as read back, the three totals are the numbers of records with
that priority; they add up to the number of records if all rules have priority 1, 2 or 3. -/
theorem C58_json_totals_partial (info : RuleId → RuleInfo) (now : Int) (w : ResultsView)
    (hrule : ∀ v ∈ w.answer .violations, v.rule ≠ none)
    (hv : ∀ v ∈ w.answer .violations, JsonClean info v)
    (hb : ∀ v ∈ w.answer .checkerBugs, JsonClean info v) :
    ∃ s d, jsonReport info now w = .ok s ∧ readJson s = some d ∧
      (∀ p : Int, (p = 1 ∨ p = 2 ∨ p = 3) → jsonTotal d p = some (((jsonRecordsOf d p).length : Nat) : Int)) ∧
      (∀ p : Int, ¬ (p = 1 ∨ p = 2 ∨ p = 3) → jsonTotal d p = none) ∧
      (Prioritised info (w.answer .violations) →
        (jsonRecordsOf d 1).length + (jsonRecordsOf d 2).length + (jsonRecordsOf d 3).length
          = (jsonRecords d).length) := by
  obtain ⟨s, h1, h2⟩ := C55_json_reads_back_partial info now w hrule hv hb
  refine ⟨s, _, h1, h2, ?_⟩
  generalize w.answer .violations = vs at *
  generalize w.answer .checkerBugs = bugs at *
  generalize toInt32 now = t
  generalize numberOfFiles w.collector = f
  generalize numberOfFilesWithViolations w.collector = fv
  have hrec : jsonRecords (reportJson info t f fv vs bugs) = vs.map (violationJson info) := by
    unfold jsonRecords reportJson
    rw [member_obj, find_key_skip _ _ _ _ (by decide), find_key_skip _ _ _ _ (by decide),
      find_key_skip _ _ _ _ (by decide), find_key_skip _ _ _ _ (by decide), find_key_here]
    rfl
  have hof : ∀ p, (jsonRecordsOf (reportJson info t f fv vs bugs) p).length
      = countWithPriority (fun r => (info r).priority) p vs := by
    intro p
    unfold jsonRecordsOf countWithPriority
    rw [hrec, filter_length_map]
    simp only [violationJson_priority]
  have hpr : ∀ p, (priorityJson info vs p).priority = some p := by
    intro p
    unfold Json.priority priorityJson
    rw [member_obj, find_key_here]; rfl
  have hnum : ∀ p, ((priorityJson info vs p).member "number".toList).bind Json.number
      = some (countWithPriority (fun r => (info r).priority) p vs : Int) := by
    intro p
    unfold priorityJson
    rw [member_obj, find_key_skip _ _ _ _ (by decide), find_key_here]; rfl
  have htot : ∀ p, jsonTotal (reportJson info t f fv vs bugs) p =
      (([priorityJson info vs 1, priorityJson info vs 2, priorityJson info vs 3].find?
        fun e => decide (e.priority = some p)).bind fun e =>
          (e.member "number".toList).bind Json.number) := by
    intro p
    unfold jsonTotal
    generalize hq : (fun l : Json => (l.items.find? fun e => decide (e.priority = some p)).bind fun e =>
        (e.member "number".toList).bind Json.number) = q
    have : ∀ l : Json, q l = (l.items.find? fun e => decide (e.priority = some p)).bind fun e =>
        (e.member "number".toList).bind Json.number := fun l => by rw [← hq]
    unfold reportJson
    rw [member_obj, find_key_skip _ _ _ _ (by decide), find_key_skip _ _ _ _ (by decide),
      find_key_skip _ _ _ _ (by decide), find_key_here, Option.map_some, Option.bind_some,
      member_obj, find_key_skip _ _ _ _ (by decide), find_key_skip _ _ _ _ (by decide),
      find_key_here, Option.map_some, Option.bind_some, this]
    rfl
  refine ⟨?_, ?_, ?_⟩
  · intro p hp
    rw [htot, hof]
    rcases hp with e | e | e <;> subst e <;>
      simp only [List.find?_cons, hpr, Option.some.injEq, decide_true, decide_false, Option.bind_some,
        hnum, (by decide : ¬ (1 : Int) = 2), (by decide : ¬ (1 : Int) = 3), (by decide : ¬ (2 : Int) = 3)]
  · intro p hp
    rw [htot]
    simp only [not_or] at hp
    simp [hpr, Ne.symm hp.1, Ne.symm hp.2.1, Ne.symm hp.2.2]
  · intro hp
    rw [hof, hof, hof, hrec, List.length_map]
    exact countWithPriority_sum info vs hrule hp

/-! ## XML -/

theorem dropWhile_all {α : Type} (p : α → Bool) (a b : List α) (h : ∀ x ∈ a, p x = true) :
    (a ++ b).dropWhile p = b.dropWhile p := by
  induction a with
  | nil => rfl
  | cons x a ih =>
    rw [List.cons_append, List.dropWhile_cons_of_pos (h x (by simp)), ih (fun y hy => h y (by simp [hy]))]

theorem isOpen_other (n m : Str) (attrs : List (Str × Str)) (h : m ≠ n) :
    isOpen n (.open m attrs) = false := decide_eq_false h

theorem inside_eq (name : Str) (attrs : List (Str × Str)) (a b c : List Tok)
    (ha : ∀ t ∈ a, isOpen name t = false) (hb : ∀ t ∈ b, t ≠ .close name) :
    inside name (a ++ (.open name attrs :: (b ++ (.close name :: c)))) = b := by
  unfold inside
  rw [dropWhile_all _ a _ (fun x hx => by simp [ha x hx]), List.dropWhile_cons_of_neg (by simp [isOpen]),
    List.drop_one, List.tail_cons]
  induction b with
  | nil => simp
  | cons x b ih =>
    have := ih (fun t ht => hb t (by simp [ht]))
    rw [List.cons_append, List.takeWhile_cons_of_pos (by simp [hb x (by simp)]), this]

theorem violationXml_inside (info : RuleId → RuleInfo) (vs : List Violation) (t : Tok)
    (h : t ∈ vs.flatMap (violationXml info)) :
    (∃ attrs, t = .open "violation".toList attrs) ∨ t = .close "violation".toList := by
  rw [List.mem_flatMap] at h
  obtain ⟨v, _, hv⟩ := h
  unfold violationXml at hv
  simp only [List.mem_cons, List.not_mem_nil, or_false] at hv
  rcases hv with h | h
  · exact .inl ⟨_, h⟩
  · exact .inr h

theorem lookup_skip {α : Type} (key k : Str) (v : α) (l : List (Str × α)) (h : key ≠ k) :
    List.lookup key ((k, v) :: l) = List.lookup key l := by
  rw [List.lookup_cons]
  have : (key == k) = false := by simpa using h
  rw [this]

/-- The attributes of a violation element. -/
def violationAttrs (info : RuleId → RuleInfo) (v : Violation) : List (Str × Str) :=
  [("path".toList, v.path), ("startline".toList, decimalInt v.startLine),
        ("startcolumn".toList, decimalInt v.startColumn)]
      ++ (if v.endLine ≠ 0 ∧ v.endColumn ≠ 0 then
          [("endline".toList, decimalInt v.endLine), ("endcolumn".toList, decimalInt v.endColumn)]
          else [])
      ++ (match v.rule with
          | none => []
          | some r => [("rule".toList, (info r).name), ("category".toList, (info r).category),
              ("priority".toList, decimalInt (info r).priority)])
      ++ [("message".toList, v.message)]

theorem violationAttrs_priority (info : RuleId → RuleInfo) (v : Violation) :
    ((violationAttrs info v).lookup "priority".toList).bind readInt
      = v.rule.map fun r => (info r).priority := by
  have n1 : "priority".toList ≠ "path".toList := by decide
  have n2 : "priority".toList ≠ "startline".toList := by decide
  have n3 : "priority".toList ≠ "startcolumn".toList := by decide
  have n4 : "priority".toList ≠ "endline".toList := by decide
  have n5 : "priority".toList ≠ "endcolumn".toList := by decide
  have n6 : "priority".toList ≠ "rule".toList := by decide
  have n7 : "priority".toList ≠ "category".toList := by decide
  have n8 : "priority".toList ≠ "message".toList := by decide
  unfold violationAttrs
  generalize "path".toList = a1 at n1 ⊢
  generalize "startline".toList = a2 at n2 ⊢
  generalize "startcolumn".toList = a3 at n3 ⊢
  generalize "endline".toList = a4 at n4 ⊢
  generalize "endcolumn".toList = a5 at n5 ⊢
  generalize "rule".toList = a6 at n6 ⊢
  generalize "category".toList = a7 at n7 ⊢
  generalize "message".toList = a8 at n8 ⊢
  generalize "priority".toList = k at *
  cases v.rule <;> split_ifs <;>
    simp only [List.cons_append, List.nil_append, lookup_skip _ _ _ _ n1, lookup_skip _ _ _ _ n2,
      lookup_skip _ _ _ _ n3, lookup_skip _ _ _ _ n4, lookup_skip _ _ _ _ n5, lookup_skip _ _ _ _ n6,
      lookup_skip _ _ _ _ n7, lookup_skip _ _ _ _ n8, List.lookup_cons_self, List.lookup_nil,
      Option.bind_some, Option.bind_none, readInt_decimalInt, Option.map_some, Option.map_none]

theorem xmlRecords_flatMap (info : RuleId → RuleInfo) (vs : List Violation) :
    (vs.flatMap (violationXml info)).filterMap violationElement = vs.map (violationAttrs info) := by
  induction vs with
  | nil => rfl
  | cons v vs ih =>
    rw [List.flatMap_cons, List.filterMap_append, ih, List.map_cons]
    have : (violationXml info v).filterMap violationElement = [violationAttrs info v] := by
      have e : violationXml info v =
          [.open "violation".toList (violationAttrs info v), .close "violation".toList] := rfl
      have e1 : violationElement (.open "violation".toList (violationAttrs info v))
          = some (violationAttrs info v) := by
        rw [violationElement, if_pos rfl]
      rw [e, List.filterMap_cons_some e1, List.filterMap_cons_none rfl, List.filterMap_nil]
    rw [this]
    rfl

theorem textBehind_skip (t a : Tok) (l : List Tok) (h : a ≠ t) :
    textBehind t (a :: l) = textBehind t l := by
  cases l with
  | nil => rfl
  | cons b r => cases b <;> simp [textBehind, h]

theorem textBehind_text (n : Str) (a : List (Str × Str)) (s : Str) (l : List Tok) :
    textBehind (.open n a) (.text s :: l) = textBehind (.open n a) l :=
  textBehind_skip _ _ _ (fun h => by cases h)

theorem textBehind_close (n : Str) (a : List (Str × Str)) (s : Str) (l : List Tok) :
    textBehind (.open n a) (.close s :: l) = textBehind (.open n a) l :=
  textBehind_skip _ _ _ (fun h => by cases h)

theorem textBehind_open (n m : Str) (a b : List (Str × Str)) (l : List Tok)
    (h : decide ((Tok.open m b) = .open n a) = false) :
    textBehind (.open n a) (.open m b :: l) = textBehind (.open n a) l :=
  textBehind_skip _ _ _ (of_decide_eq_false h)

theorem textBehind_here (t : Tok) (s : Str) (l : List Tok) :
    textBehind t (t :: .text s :: l) = some s := by
  simp [textBehind]

/-- Each piece of the summary in turn. -/
theorem inside_summary (info : RuleId → RuleInfo) (dt : Str) (f fv : Int) (vs bugs : List Violation) :
    inside "summary".toList (reportXml info dt f fv vs bugs) =
      propertyXml "number of files".toList f ++ propertyXml "files with violations".toList fv
      ++ propertyXml "number of priority 1 violations".toList
          (countWithPriority (fun r => (info r).priority) 1 vs)
      ++ propertyXml "number of priority 2 violations".toList
          (countWithPriority (fun r => (info r).priority) 2 vs)
      ++ propertyXml "number of priority 3 violations".toList
          (countWithPriority (fun r => (info r).priority) 3 vs) := by
  unfold reportXml
  generalize countWithPriority (fun r => (info r).priority) 1 vs = n1
  generalize countWithPriority (fun r => (info r).priority) 2 vs = n2
  generalize countWithPriority (fun r => (info r).priority) 3 vs = n3
  have hprop : ∀ (k : Str) (n : Int), ∀ t ∈ propertyXml k n, t ≠ .close "summary".toList := by
    intro k n t ht
    unfold propertyXml at ht
    simp only [List.mem_cons, List.not_mem_nil, or_false] at ht
    rcases ht with e | e | e <;> rw [e]
    · exact nofun
    · exact nofun
    · decide
  have h1 : ∀ t ∈ ([.pi "xml version=\"1.0\" encoding=\"UTF-8\" ".toList,
      .open "oclint".toList [("version".toList, "24.11".toList), ("url".toList, "https://oclint.org".toList)],
      .open "datetime".toList [], .text dt, .close "datetime".toList] : List Tok),
      isOpen "summary".toList t = false := by
    intro t ht
    simp only [List.mem_cons, List.not_mem_nil, or_false] at ht
    rcases ht with e | e | e | e | e <;> rw [e]
    · rfl
    · exact isOpen_other _ _ _ (by decide)
    · exact isOpen_other _ _ _ (by decide)
    · rfl
    · rfl
  have := inside_eq "summary".toList [] _
    (propertyXml "number of files".toList f ++ propertyXml "files with violations".toList fv
      ++ propertyXml "number of priority 1 violations".toList n1
      ++ propertyXml "number of priority 2 violations".toList n2
      ++ propertyXml "number of priority 3 violations".toList n3)
    ([.open "violations".toList []] ++ (vs.flatMap (violationXml info)
      ++ ([.close "violations".toList, .open "clangstaticanalyzer".toList []]
      ++ (bugs.flatMap (violationXml info)
      ++ [.close "clangstaticanalyzer".toList, .close "oclint".toList, .text ['\n']])))) h1 (by
      intro t ht
      simp only [List.mem_append] at ht
      rcases ht with (((h | h) | h) | h) | h <;> exact hprop _ _ t h)
  refine (congrArg _ ?_).trans this
  simp only [List.append_assoc, List.cons_append, List.nil_append]

theorem inside_violations (info : RuleId → RuleInfo) (dt : Str) (f fv : Int) (vs bugs : List Violation) :
    inside "violations".toList (reportXml info dt f fv vs bugs) = vs.flatMap (violationXml info) := by
  unfold reportXml
  generalize countWithPriority (fun r => (info r).priority) 1 vs = n1
  generalize countWithPriority (fun r => (info r).priority) 2 vs = n2
  generalize countWithPriority (fun r => (info r).priority) 3 vs = n3
  have hprop : ∀ (k : Str) (n : Int), ∀ t ∈ propertyXml k n, isOpen "violations".toList t = false := by
    intro k n t ht
    unfold propertyXml at ht
    simp only [List.mem_cons, List.not_mem_nil, or_false] at ht
    rcases ht with e | e | e <;> rw [e]
    · exact isOpen_other _ _ _ (by decide)
    · rfl
    · rfl
  have := inside_eq "violations".toList []
    ([.pi "xml version=\"1.0\" encoding=\"UTF-8\" ".toList,
      .open "oclint".toList [("version".toList, "24.11".toList), ("url".toList, "https://oclint.org".toList)],
      .open "datetime".toList [], .text dt, .close "datetime".toList, .open "summary".toList []]
      ++ propertyXml "number of files".toList f ++ propertyXml "files with violations".toList fv
      ++ propertyXml "number of priority 1 violations".toList n1
      ++ propertyXml "number of priority 2 violations".toList n2
      ++ propertyXml "number of priority 3 violations".toList n3 ++ [.close "summary".toList])
    (vs.flatMap (violationXml info))
    ([.open "clangstaticanalyzer".toList []]
      ++ (bugs.flatMap (violationXml info)
      ++ [.close "clangstaticanalyzer".toList, .close "oclint".toList, .text ['\n']])) (by
      intro t ht
      rw [List.mem_append, List.mem_append, List.mem_append, List.mem_append, List.mem_append,
        List.mem_append] at ht
      rcases ht with (((((h | h) | h) | h) | h) | h) | h
      · simp only [List.mem_cons, List.not_mem_nil, or_false] at h
        rcases h with e | e | e | e | e | e <;> rw [e]
        · rfl
        · exact isOpen_other _ _ _ (by decide)
        · exact isOpen_other _ _ _ (by decide)
        · rfl
        · rfl
        · exact isOpen_other _ _ _ (by decide)
      · exact hprop _ _ t h
      · exact hprop _ _ t h
      · exact hprop _ _ t h
      · exact hprop _ _ t h
      · exact hprop _ _ t h
      · rw [List.mem_singleton.mp h]; rfl) (by
      intro t ht
      rcases violationXml_inside info vs t ht with ⟨as, e⟩ | e <;> rw [e]
      · exact nofun
      · decide)
  refine (congrArg _ ?_).trans this
  simp only [List.append_assoc, List.cons_append, List.nil_append]

/-- **C58 (XML).** In the document as read back, the three totals are the numbers of violation
elements with that priority; they add up to the number of violation elements if all rules have
priority 1, 2 or 3. -/
theorem C58_xml_totals_partial (info : RuleId → RuleInfo) (tm : Tm) (w : ResultsView)
    (ht : IsInt32 (tm.year + 1900))
    (hrule : ∀ v ∈ w.answer .violations, v.rule ≠ none)
    (hv : ∀ v ∈ w.answer .violations, XmlClean info v)
    (hb : ∀ v ∈ w.answer .checkerBugs, XmlClean info v) :
    ∃ s ts, xmlReport info (some tm) w = .ok s ∧ readXml s = some ts ∧
      xmlTotal ts "number of priority 1 violations".toList = some ((xmlRecordsOf ts 1).length : Int) ∧
      xmlTotal ts "number of priority 2 violations".toList = some ((xmlRecordsOf ts 2).length : Int) ∧
      xmlTotal ts "number of priority 3 violations".toList = some ((xmlRecordsOf ts 3).length : Int) ∧
      (Prioritised info (w.answer .violations) →
        (xmlRecordsOf ts 1).length + (xmlRecordsOf ts 2).length + (xmlRecordsOf ts 3).length
          = (xmlRecords ts).length) := by
  obtain ⟨s, dt, h1, _, h2⟩ := C55_xml_reads_back_partial info tm w ht hrule hv hb
  refine ⟨s, _, h1, h2, ?_⟩
  clear h1 h2 hv hb
  generalize w.answer .violations = vs at *
  generalize w.answer .checkerBugs = bugs at *
  generalize ((numberOfFiles w.collector : Nat) : Int) = f
  generalize ((numberOfFilesWithViolations w.collector : Nat) : Int) = fv
  have hrec : xmlRecords (reportXml info dt f fv vs bugs) = vs.map (violationAttrs info) := by
    unfold xmlRecords
    rw [inside_violations, xmlRecords_flatMap]
  have hof : ∀ p, (xmlRecordsOf (reportXml info dt f fv vs bugs) p).length
      = countWithPriority (fun r => (info r).priority) p vs := by
    intro p
    unfold xmlRecordsOf countWithPriority
    rw [hrec, filter_length_map]
    simp only [violationAttrs_priority]
  have hsum := inside_summary info dt f fv vs bugs
  refine ⟨?_, ?_, ?_, ?_⟩
  · unfold xmlTotal
    rw [hof, hsum]
    unfold propertyXml
    simp only [List.cons_append, List.nil_append]
    repeat
      first
      | rw [textBehind_text]
      | rw [textBehind_close]
      | rw [textBehind_open _ _ _ _ _ (by decide +kernel)]
    rw [textBehind_here, Option.bind_some, readInt_decimalInt]
  · unfold xmlTotal
    rw [hof, hsum]
    unfold propertyXml
    simp only [List.cons_append, List.nil_append]
    repeat
      first
      | rw [textBehind_text]
      | rw [textBehind_close]
      | rw [textBehind_open _ _ _ _ _ (by decide +kernel)]
    rw [textBehind_here, Option.bind_some, readInt_decimalInt]
  · unfold xmlTotal
    rw [hof, hsum]
    unfold propertyXml
    simp only [List.cons_append, List.nil_append]
    repeat
      first
      | rw [textBehind_text]
      | rw [textBehind_close]
      | rw [textBehind_open _ _ _ _ _ (by decide +kernel)]
    rw [textBehind_here, Option.bind_some, readInt_decimalInt]
  · intro hp
    rw [hof, hof, hof, hrec, List.length_map]
    exact countWithPriority_sum info vs hrule hp

/-! ## HTML -/

theorem count_cellToks_plain (t : Tok) (text : Str) (h1 : t ≠ .open "td".toList [])
    (h2 : ∀ s, t ≠ .text s) (h3 : ∀ n, t ≠ .close n) : (cellToks [] text).count t = 0 := by
  rw [List.count_eq_zero]
  intro h
  unfold cellToks at h
  simp only [List.mem_append, List.mem_cons, List.not_mem_nil, or_false] at h
  rcases h with (h | h) | h
  · exact h1 h
  · split_ifs at h
    · cases h
    · exact h2 _ (List.mem_singleton.mp h)
  · exact h3 _ h

theorem count_cellToks_class (c cls text : Str) :
    (cellToks [("class".toList, cls)] text).count (classCell c) = if cls = c then 1 else 0 := by
  unfold cellToks classCell
  generalize "class".toList = k
  generalize "td".toList = n
  split_ifs with h1 h2 h2 <;> simp [h2]

theorem count_rowToks_class (c : Str) (v : Violation) (rule category cls priority : Str) :
    (rowToks v rule category cls priority).count (classCell c) = if cls = c then 1 else 0 := by
  have hplain : ∀ text, (cellToks [] text).count (classCell c) = 0 := fun text =>
    count_cellToks_plain _ text (by simp [classCell]) (fun s => nofun) (fun n => nofun)
  have htr : ([.open "tr".toList []] : List Tok).count (classCell c) = 0 := by
    simp [classCell]
  have hcl : ([.close "tr".toList] : List Tok).count (classCell c) = 0 := by
    simp [classCell]
  unfold rowToks
  simp only [List.count_append, hplain, htr, hcl, count_cellToks_class]
  omega

theorem count_rowToks_row (v : Violation) (rule category cls priority : Str) :
    (rowToks v rule category cls priority).count (.open "tr".toList []) = 1 := by
  have hne : (.open "tr".toList [] : Tok) ≠ .open "td".toList [] := by decide
  have hplain : ∀ text, (cellToks [] text).count (.open "tr".toList []) = 0 := fun text =>
    count_cellToks_plain _ text hne (fun s => nofun) (fun n => nofun)
  have hclass : (cellToks [("class".toList, cls)] priority).count (.open "tr".toList []) = 0 := by
    rw [List.count_eq_zero]
    intro h
    unfold cellToks at h
    simp only [List.mem_append, List.mem_cons, List.not_mem_nil, or_false] at h
    rcases h with (h | h) | h
    · injection h with h1 h2
      cases h2
    · split_ifs at h
      · cases h
      · exact absurd (List.mem_singleton.mp h) nofun
    · cases h
  have htr : ([.open "tr".toList []] : List Tok).count (.open "tr".toList []) = 1 :=
    List.count_cons_self
  have hcl : ([.close "tr".toList] : List Tok).count (.open "tr".toList []) = 0 := by
    rw [List.count_eq_zero]
    intro h
    exact absurd (List.mem_singleton.mp h) nofun
  unfold rowToks
  simp only [List.count_append, hplain, htr, hcl, hclass]

theorem count_violationRows (info : RuleId → RuleInfo) (c : Str) (p : Int) (vs : List Violation)
    (hc : ∀ q : Int, "priority".toList ++ decimalInt q = c ↔ q = p) :
    (vs.flatMap (violationRow info)).count (classCell c)
      = countWithPriority (fun r => (info r).priority) p vs := by
  unfold countWithPriority
  induction vs with
  | nil => rfl
  | cons v vs ih =>
    rw [List.flatMap_cons, List.count_append, ih, List.filter_cons]
    cases e : v.rule with
    | none => simp [violationRow, e]
    | some r =>
      simp only [violationRow, e, count_rowToks_class, hc, Option.map_some, Option.some.injEq,
        decide_eq_true_eq]
      split_ifs <;> (simp; try omega)

theorem count_diagRows (c rule category cls priority : Str) (vs : List Violation) :
    (vs.flatMap fun v => rowToks v rule category cls priority).count (classCell c)
      = if cls = c then vs.length else 0 := by
  induction vs with
  | nil => simp
  | cons v vs ih =>
    rw [List.flatMap_cons, List.count_append, ih, count_rowToks_class]
    split_ifs
    · rw [List.length_cons]; omega
    · rfl

theorem count_rows (rule category cls priority : Str) (vs : List Violation) :
    (vs.flatMap fun v => rowToks v rule category cls priority).count (.open "tr".toList [])
      = vs.length := by
  induction vs with
  | nil => rfl
  | cons v vs ih =>
    rw [List.flatMap_cons, List.count_append, ih, count_rowToks_row, List.length_cons]; omega

theorem count_violations (info : RuleId → RuleInfo) (vs : List Violation)
    (h : ∀ v ∈ vs, v.rule ≠ none) :
    (vs.flatMap (violationRow info)).count (.open "tr".toList []) = vs.length := by
  induction vs with
  | nil => rfl
  | cons v vs ih =>
    rw [List.flatMap_cons, List.count_append, ih (fun u hu => h u (by simp [hu])), List.length_cons]
    cases e : v.rule with
    | none => exact absurd e (h v (by simp))
    | some r =>
      simp only [violationRow, e, count_rowToks_row]
      omega

/-- The class of a priority. -/
theorem priorityClass (p : Int) (q : Int) :
    "priority".toList ++ decimalInt q = "priority".toList ++ decimalInt p ↔ q = p := by
  constructor
  · intro h
    have := List.append_cancel_left h
    have h2 := congrArg readInt this
    rw [readInt_decimalInt, readInt_decimalInt] at h2
    exact Option.some.inj h2
  · intro h; rw [h]

theorem htmlRowCountOf_diag (info : RuleId → RuleInfo) (c : Str) (es ws vs bs : List Violation)
    (hc : ∀ q : Int, "priority".toList ++ decimalInt q ≠ c) :
    htmlRowCountOf (rowsHtml info es ws vs bs) c =
      (if "cmplr-error".toList = c then es.length else 0)
      + (if "cmplr-warning".toList = c then ws.length else 0)
      + (if "checker-bug".toList = c then bs.length else 0) := by
  have hv : (vs.flatMap (violationRow info)).count (classCell c) = 0 := by
    induction vs with
    | nil => rfl
    | cons v vs ih =>
      rw [List.flatMap_cons, List.count_append, ih]
      cases e : v.rule with
      | none => simp [violationRow, e]
      | some r =>
        simp only [violationRow, e, count_rowToks_class]
        rw [if_neg (hc _)]
  unfold htmlRowCountOf rowsHtml
  rw [List.count_append, List.count_append, List.count_append, hv, count_diagRows, count_diagRows,
    count_diagRows, Nat.zero_add]

theorem htmlRowCountOf_priority (info : RuleId → RuleInfo) (p : Int) (es ws vs bs : List Violation) :
    htmlRowCountOf (rowsHtml info es ws vs bs) ("priority".toList ++ decimalInt p) =
      countWithPriority (fun r => (info r).priority) p vs := by
  have n : ∀ x : Str, x.head? ≠ some 'p' → x ≠ "priority".toList ++ decimalInt p := by
    intro x hx e
    exact hx (by rw [e]; rfl)
  unfold htmlRowCountOf rowsHtml
  rw [List.count_append, List.count_append, List.count_append,
    count_violationRows info _ p vs (priorityClass p), count_diagRows, count_diagRows, count_diagRows,
    if_neg (n _ (by decide)), if_neg (n _ (by decide)), if_neg (n _ (by decide))]
  rfl

/-- **C58 (HTML).** The six totals in the summary table are the numbers of rows of the details table
whose priority cell has that class; together they are the number of rows if all rules have priority
1, 2 or 3. -/
theorem C58_html_totals_partial (info : RuleId → RuleInfo) (ctime : Str) (w : ResultsView)
    (hrule : ∀ v ∈ w.answer .violations, v.rule ≠ none)
    (hc : ∀ ch, ∀ v ∈ w.answer ch, HtmlClean info v) :
    ∃ before summary between rows behind st rt,
      htmlReport info ctime w = .ok (before ++ "<h2>Summary</h2>".toList ++ summary
        ++ "<h2>Details</h2>".toList ++ between ++ rows ++ "</tbody></table>".toList ++ behind) ∧
      scanXml summary = some st ∧ scanXml rows = some rt ∧
      (∀ cls ∈ ["priority1".toList, "priority2".toList, "priority3".toList, "cmplr-error".toList,
          "cmplr-warning".toList, "checker-bug".toList],
        htmlTotal st cls = some (htmlRowCountOf rt cls : Int)) ∧
      htmlRowCount rt = (w.answer .violations).length + (w.answer .errors).length
        + (w.answer .warnings).length + (w.answer .checkerBugs).length ∧
      (Prioritised info (w.answer .violations) →
        (["priority1".toList, "priority2".toList, "priority3".toList, "cmplr-error".toList,
          "cmplr-warning".toList, "checker-bug".toList].map (htmlRowCountOf rt)).sum
          = htmlRowCount rt) := by
  obtain ⟨summary, details, rows, h1, h2, _, h3⟩ := C55_html_reads_back_partial info ctime w hrule (hc _)
    (fun ch _ v hm => ⟨(hc ch v hm).1, (hc ch v hm).2.1⟩)
  refine ⟨"<!DOCTYPE html><html>".toList ++ htmlHead ++ "<body><h1>OCLint Report</h1>".toList, summary,
    details, rows, "<hr /><p>".toList ++ ctime
        ++ "| Generated with <a href='https://oclint.org'>OCLint v24.11</a>.</p></body></html>\n".toList,
    _, _, ?_, h2, h3, ?_⟩
  · rw [h1]
    have l1 : "<body><h1>OCLint Report</h1><h2>Summary</h2>".toList =
        "<body><h1>OCLint Report</h1>".toList ++ "<h2>Summary</h2>".toList := by decide +kernel
    have l2 : "</tbody></table><hr /><p>".toList =
        "</tbody></table>".toList ++ "<hr /><p>".toList := by decide +kernel
    rw [l1, l2]
    generalize htmlHead = hd
    simp only [List.append_assoc]
  · clear h1 h2 h3 hc
    generalize w.answer .violations = vs at *
    generalize w.answer .errors = es
    generalize w.answer .warnings = ws
    generalize w.answer .checkerBugs = bs
    generalize ((numberOfFiles w.collector : Nat) : Int) = f
    generalize ((numberOfFilesWithViolations w.collector : Nat) : Int) = fv
    have c1 : htmlRowCountOf (rowsHtml info es ws vs bs) "priority1".toList =
        countWithPriority (fun r => (info r).priority) 1 vs := by
      rw [(by decide +kernel : "priority1".toList = "priority".toList ++ decimalInt 1)]
      exact htmlRowCountOf_priority info 1 es ws vs bs
    have c2 : htmlRowCountOf (rowsHtml info es ws vs bs) "priority2".toList =
        countWithPriority (fun r => (info r).priority) 2 vs := by
      rw [(by decide +kernel : "priority2".toList = "priority".toList ++ decimalInt 2)]
      exact htmlRowCountOf_priority info 2 es ws vs bs
    have c3 : htmlRowCountOf (rowsHtml info es ws vs bs) "priority3".toList =
        countWithPriority (fun r => (info r).priority) 3 vs := by
      rw [(by decide +kernel : "priority3".toList = "priority".toList ++ decimalInt 3)]
      exact htmlRowCountOf_priority info 3 es ws vs bs
    have np : ∀ x : Str, x.head? ≠ some 'p' → ∀ q : Int, "priority".toList ++ decimalInt q ≠ x := by
      intro x hx q e
      exact hx (by rw [← e]; rfl)
    have c4 : htmlRowCountOf (rowsHtml info es ws vs bs) "cmplr-error".toList = es.length := by
      rw [htmlRowCountOf_diag info _ es ws vs bs (np _ (by decide)), if_pos rfl, if_neg (by decide),
        if_neg (by decide)]
      rfl
    have c5 : htmlRowCountOf (rowsHtml info es ws vs bs) "cmplr-warning".toList = ws.length := by
      rw [htmlRowCountOf_diag info _ es ws vs bs (np _ (by decide)), if_neg (by decide), if_pos rfl,
        if_neg (by decide)]
      omega
    have c6 : htmlRowCountOf (rowsHtml info es ws vs bs) "checker-bug".toList = bs.length := by
      rw [htmlRowCountOf_diag info _ es ws vs bs (np _ (by decide)), if_neg (by decide),
        if_neg (by decide), if_pos rfl]
      omega
    have ct : htmlRowCount (rowsHtml info es ws vs bs) = vs.length + es.length + ws.length + bs.length := by
      unfold htmlRowCount rowsHtml
      rw [List.count_append, List.count_append, List.count_append, count_violations info vs hrule,
        count_rows, count_rows, count_rows]
    refine ⟨?_, ct, ?_⟩
    · have nonempty : ∀ z : Int, decimalInt z ≠ [] := by
        intro z e
        have := readInt_decimalInt z
        rw [e] at this
        exact absurd this (by simp [readInt, readNat])
      intro cls hcls
      simp only [List.mem_cons, List.not_mem_nil, or_false] at hcls
      unfold htmlTotal classCell summaryHtml headToks cellToks
      simp only [if_neg (nonempty _), List.cons_append, List.nil_append]
      rcases hcls with e | e | e | e | e | e <;> rw [e] <;>
        first
        | rw [c1] | rw [c2] | rw [c3] | rw [c4] | rw [c5] | rw [c6]
      all_goals
        repeat
          first
          | rw [textBehind_text]
          | rw [textBehind_close]
          | rw [textBehind_open _ _ _ _ _ (by decide +kernel)]
        rw [textBehind_here, Option.bind_some, readInt_decimalInt]
    · intro hp
      rw [ct]
      simp only [List.map_cons, List.map_nil, List.sum_cons, List.sum_nil, c1, c2, c3, c4, c5, c6]
      have := countWithPriority_sum info vs hrule hp
      omega

/-! Concrete reports: two findings of priorities 3 and 1, and a checker finding. -/

/-- Rule 0 has priority 3, all others priority 1. -/
def totalsInfo : RuleId → RuleInfo := fun r =>
  ⟨"rule".toList, "size".toList, if r = 0 then 3 else 1⟩

def totalsView : ResultsView :=
  { collector := { collection := [], errorSet := [], warningSet := [], checkerBugSet := [] }
    answer := fun ch =>
      match ch with
      | .violations => [⟨some 0, "a.m".toList, 1, 2, 3, 4, "x".toList⟩,
          ⟨some 1, "b.m".toList, 5, 6, 7, 8, "y".toList⟩, ⟨some 0, "b.m".toList, 9, 6, 9, 8, "z".toList⟩]
      | .checkerBugs => [⟨none, "b.m".toList, 7, 6, 0, 0, "leak".toList⟩]
      | _ => [] }

example : ∃ s d, jsonReport totalsInfo 0 totalsView = .ok s ∧ readJson s = some d ∧
    jsonTotal d 1 = some 1 ∧ jsonTotal d 2 = some 0 ∧ jsonTotal d 3 = some 2 := by
  refine ⟨_, (readJson _).get (by decide +kernel), rfl, (Option.some_get _).symm, ?_, ?_, ?_⟩ <;>
    decide +kernel

example : ∃ s ts, xmlReport totalsInfo (some ⟨124, 10, 5, 1, 2, 3⟩) totalsView = .ok s ∧
    readXml s = some ts ∧ xmlTotal ts "number of priority 3 violations".toList = some 2 ∧
    (xmlRecordsOf ts 3).length = 2 ∧ (xmlRecords ts).length = 3 := by
  refine ⟨_, (readXml _).get (by decide +kernel), rfl, (Option.some_get _).symm, ?_, ?_, ?_⟩ <;>
    decide +kernel

example : htmlRowCountOf (rowsHtml totalsInfo [] [] (totalsView.answer .violations)
      (totalsView.answer .checkerBugs)) "priority3".toList = 2 ∧
    htmlRowCountOf (rowsHtml totalsInfo [] [] (totalsView.answer .violations)
      (totalsView.answer .checkerBugs)) "checker-bug".toList = 1 := by decide +kernel

end Oclint
