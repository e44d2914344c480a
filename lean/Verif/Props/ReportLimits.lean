import Verif.Lemmas.ReadNumbers
import Verif.Props.Results
import Verif.Props.ReportJson
import Verif.Props.ReportXml
import Verif.Props.ReportPmd
import Verif.Props.ReportText

/-!
# C55 to C58: limits of the report writers

The read back theorems need texts without special characters.  Here: what happens otherwise, what is
written as the time, and how the totals relate to the records.
-/

set_option linter.unusedSimpArgs false

namespace Oclint
open Spec

/-! ## One sample violation with a given path and message -/

/-- A rule for the samples. -/
def sampleInfo : RuleId → RuleInfo := fun _ => ⟨"long line".toList, "size".toList, 3⟩

/-- A result with one violation. -/
def sampleView (path message : String) : ResultsView :=
  { collector := { collection := [], errorSet := [], warningSet := [], checkerBugSet := [] }
    answer := fun ch =>
      match ch with
      | .violations => [⟨some 0, path.toList, 1, 2, 3, 4, message.toList⟩]
      | _ => [] }

/-! ## Well-formedness -/

/-- **C56 (JSON).** The report is JSON for results without quotes, backslashes and control
characters. -/
theorem C56_json_wellformed_partial (info : RuleId → RuleInfo) (now : Int) (w : ResultsView)
    (hrule : ∀ v ∈ w.answer .violations, v.rule ≠ none)
    (hv : ∀ v ∈ w.answer .violations, JsonClean info v)
    (hb : ∀ v ∈ w.answer .checkerBugs, JsonClean info v) :
    ∃ s j, jsonReport info now w = .ok s ∧ readJson s = some j := by
  obtain ⟨s, h1, h2⟩ := C55_json_reads_back_partial info now w hrule hv hb
  exact ⟨s, _, h1, h2⟩

/-- **C56 (XML).** The report is well formed for results without `<`, `&`, double quotes and control
characters. -/
theorem C56_xml_wellformed_partial (info : RuleId → RuleInfo) (tm : Tm) (w : ResultsView)
    (ht : IsInt32 (tm.year + 1900))
    (hrule : ∀ v ∈ w.answer .violations, v.rule ≠ none)
    (hv : ∀ v ∈ w.answer .violations, XmlClean info v)
    (hb : ∀ v ∈ w.answer .checkerBugs, XmlClean info v) :
    ∃ s toks, xmlReport info (some tm) w = .ok s ∧ readXml s = some toks := by
  obtain ⟨s, dt, h1, -, h2⟩ := C55_xml_reads_back_partial info tm w ht hrule hv hb
  exact ⟨s, _, h1, h2⟩

/-- **C56 (PMD).** The report is well formed whatever the messages are, as long as they contain no
control characters and the paths and rules nothing special. -/
theorem C56_pmd_wellformed_partial (info : RuleId → RuleInfo) (w : ResultsView)
    (hp : ∀ v ∈ w.answer .violations, PmdPriority info v)
    (hc : ∀ ch, ∀ v ∈ w.answer ch, PmdClean info v) :
    ∃ s toks, pmdReport info w = .ok s ∧ readXml s = some toks := by
  obtain ⟨s, h1, h2⟩ := C55_pmd_reads_back_partial info w hp (hc _)
    (fun ch _ v hm => ⟨(hc ch v hm).1, (hc ch v hm).2.1⟩)
  exact ⟨s, _, h1, h2⟩

/-- **C56 is false for JSON.** A message with a quote (rules quote identifiers and code) makes the
report something else than JSON. -/
theorem C56_json_witness :
    (∃ s, jsonReport sampleInfo 0 (sampleView "a.m" "say \"hi\"") = .ok s ∧ readJson s = none) ∧
    (∃ s, jsonReport sampleInfo 0 (sampleView "c:\\src\\a.m" "long") = .ok s ∧ readJson s = none) :=
  ⟨⟨_, rfl, by decide +kernel⟩, ⟨_, rfl, by decide +kernel⟩⟩

/-- A result with analyzer findings only. -/
def bugsView (vs : List Violation) : ResultsView :=
  { collector := { collection := [], errorSet := [], warningSet := [], checkerBugSet := [] }
    answer := fun ch =>
      match ch with
      | .checkerBugs => vs
      | _ => [] }

/-- **C55 is false for JSON.** Different results give the same report: a message can smuggle in a
second finding. -/
theorem C55_json_ambiguous_witness :
    jsonReport sampleInfo 0 (bugsView [⟨none, "a.m".toList, 1, 2, 0, 0,
        "x\"},{\"path\":\"b.m\",\"startLine\":5,\"startColumn\":6,\"message\":\"y".toList⟩]) =
      jsonReport sampleInfo 0 (bugsView [⟨none, "a.m".toList, 1, 2, 0, 0, "x".toList⟩,
        ⟨none, "b.m".toList, 5, 6, 0, 0, "y".toList⟩]) := by
  decide +kernel

/-- **C56 is false for XML.** A message or a path with `&`, `<` or a quote is not escaped. -/
theorem C56_xml_witness :
    (∃ s, xmlReport sampleInfo (some ⟨124, 10, 5, 1, 2, 3⟩) (sampleView "a.m" "a && b") = .ok s ∧
      readXml s = none) ∧
    (∃ s, xmlReport sampleInfo (some ⟨124, 10, 5, 1, 2, 3⟩) (sampleView "a.m" "a < b") = .ok s ∧
      readXml s = none) ∧
    (∃ s, xmlReport sampleInfo (some ⟨124, 10, 5, 1, 2, 3⟩) (sampleView "a.m" "say \"hi\"") = .ok s ∧
      readXml s = none) :=
  ⟨⟨_, rfl, by decide +kernel⟩, ⟨_, rfl, by decide +kernel⟩, ⟨_, rfl, by decide +kernel⟩⟩

/-- **C56 is false for PMD.** Messages are escaped, paths are not. -/
theorem C56_pmd_witness :
    (∃ s t, pmdReport sampleInfo (sampleView "a.m" "a && b < \"c\"") = .ok s ∧ readXml s = some t) ∧
    (∃ s, pmdReport sampleInfo (sampleView "R&D/a.m" "long") = .ok s ∧ readXml s = none) :=
  ⟨⟨_, (readXml _).get (by decide +kernel), rfl, (Option.some_get _).symm⟩,
    ⟨_, rfl, by decide +kernel⟩⟩

/-- **C55 is false for the line formats.** Different results give the same text: a colon in a path,
or a newline in a message that makes one violation look like two. -/
theorem C55_xcode_ambiguous_witness :
    xcodeReport sampleInfo (sampleView "a.m" "x\nb.m:5:6: warning: long line [size|P3] y") =
      xcodeReport sampleInfo
        { collector := { collection := [], errorSet := [], warningSet := [], checkerBugSet := [] }
          answer := fun ch =>
            match ch with
            | .violations =>
              [⟨some 0, "a.m".toList, 1, 2, 3, 4, "x".toList⟩, ⟨some 0, "b.m".toList, 5, 6, 7, 8, "y".toList⟩]
            | _ => [] } := by
  decide +kernel

/-! ## Undefined behaviour -/

theorem priorityTotal_ub (info : RuleId → RuleInfo) (w : ResultsView) (p : Int)
    (h : ∃ v ∈ w.answer .violations, v.rule = none) : priorityTotal info w p = .ub :=
  (C04_priority_count_ub_iff _ _ _).2 h

/-- **C55, C58.** With a violation that has no rule, the text, JSON, XML and HTML reports are
undefined behaviour. -/
theorem C58_no_rule_ub (info : RuleId → RuleInfo) (w : ResultsView)
    (h : ∃ v ∈ w.answer .violations, v.rule = none) :
    textReport info w = .ub ∧ (∀ now, jsonReport info now w = .ub) ∧
      (∀ tm, xmlReport info tm w = .ub) ∧ (∀ ctime, htmlReport info ctime w = .ub) := by
  refine ⟨?_, ?_, ?_, ?_⟩
  · unfold textReport textSummary
    rw [priorityTotal_ub info w 1 h]
    rfl
  · intro now
    unfold jsonReport jsonSummary jsonPriority
    rw [priorityTotal_ub info w 1 h]
    rfl
  · intro tm
    unfold xmlReport xmlSummary
    rw [priorityTotal_ub info w 1 h]
    unfold xmlDatetime
    cases tm with
    | none => rfl
    | some tm =>
      dsimp only
      unfold checkInt32
      split_ifs <;> rfl
  · intro ctime
    unfold htmlReport htmlSummary
    rw [priorityTotal_ub info w 1 h]
    rfl

theorem writeEach_ub (f : Violation → Outcome Str) (hf : ∀ v, f v = .ub ∨ ∃ s, f v = .ok s)
    (vs : List Violation) (h : ∃ v ∈ vs, f v = .ub) : writeEach f vs = .ub := by
  induction vs with
  | nil => simp at h
  | cons a vs ih =>
    rw [writeEach]
    rcases hf a with ha | ⟨s, ha⟩
    · rw [ha]; rfl
    · obtain ⟨v, hv, e⟩ := h
      rcases List.mem_cons.1 hv with rfl | hv
      · rw [ha] at e; cases e
      · rw [ha, ih ⟨v, hv, e⟩]; rfl

/-- **C55 (Xcode).** The report is undefined behaviour exactly if some violation has no rule. -/
theorem C55_xcode_ub_iff (info : RuleId → RuleInfo) (w : ResultsView) :
    xcodeReport info w = .ub ↔ ∃ v ∈ w.answer .violations, v.rule = none := by
  constructor
  · intro h
    by_contra hc
    have hr : ∀ v ∈ w.answer .violations, v.rule ≠ none := fun v hv e => hc ⟨v, hv, e⟩
    unfold xcodeReport at h
    rw [writeLines_eq info " warning: ".toList _ (xcodeViolation_eq info) _ hr] at h
    cases h
  · rintro ⟨v, hv, e⟩
    unfold xcodeReport
    apply writeEach_ub
    · intro v
      unfold xcodeViolation derefRule
      cases v.rule with
      | none => exact .inl rfl
      | some r => exact .inr ⟨_, rfl⟩
    · refine ⟨v, hv, ?_⟩
      unfold xcodeViolation derefRule
      rw [e]
      rfl

/-- **C55 (PMD).** A priority too large for doubling is undefined behaviour. -/
theorem C55_pmd_priority_ub (info : RuleId → RuleInfo) (w : ResultsView) (v : Violation) (r : RuleId)
    (hv : v ∈ w.answer .violations) (hr : v.rule = some r)
    (hp : ¬ (IsInt32 (2 * (info r).priority) ∧ IsInt32 (2 * (info r).priority - 1))) :
    pmdReport info w = .ub := by
  have key : ∀ v, pmdViolation info v = .ub ∨ ∃ s, pmdViolation info v = .ok s := by
    intro v
    unfold pmdViolation
    cases v.rule with
    | none => exact .inr ⟨_, rfl⟩
    | some r =>
      unfold pmdDescription checkInt32
      dsimp only
      split_ifs
      · simp only [bind_ok']
        split_ifs
        · exact .inr ⟨_, rfl⟩
        · exact .inl rfl
      · exact .inl rfl
  have kv : pmdViolation info v = .ub := by
    unfold pmdViolation
    rw [hr]
    unfold pmdDescription checkInt32
    dsimp only
    split_ifs with h1
    · simp only [bind_ok']
      split_ifs with h2
      · exact absurd ⟨h1, h2⟩ hp
      · rfl
    · rfl
  have sub : writeEach (fun v => do let t ← pmdViolation info v; pure (t ++ endl))
      (w.answer .violations) = .ub := by
    apply writeEach_ub
    · intro u
      rcases key u with h | ⟨s, h⟩
      · rw [h]; exact .inl rfl
      · rw [h]; exact .inr ⟨_, rfl⟩
    · refine ⟨v, hv, ?_⟩
      rw [kv]; rfl
  unfold pmdReport
  rw [sub, writeEach_ok _ _ (w.answer .errors) (fun v _ => rfl),
    writeEach_ok _ _ (w.answer .warnings) (fun v _ => rfl)]
  rfl

/-! ## Totals -/

theorem countWithPriority_records (info : RuleId → RuleInfo) (p : Int) (vs : List Violation)
    (h : ∀ v ∈ vs, v.rule ≠ none) :
    countWithPriority (fun r => (info r).priority) p vs =
      ((lineRecords info vs).filter fun x => x.priority = p).length := by
  induction vs with
  | nil => rfl
  | cons v vs ih =>
    have iht := ih (fun w hw => h w (by simp [hw]))
    cases hr : v.rule with
    | none => exact absurd hr (h v (by simp))
    | some r =>
      unfold lineRecords at iht ⊢
      unfold countWithPriority at iht ⊢
      have e : lineRecord info v = some ⟨v.path, v.startLine, v.startColumn, (info r).name,
          (info r).category, (info r).priority, v.message⟩ := by simp [lineRecord, hr]
      rw [List.filterMap_cons_some e, List.filter_cons, List.filter_cons]
      simp only [hr, Option.some.injEq, exists_eq_left', decide_eq_true_eq] at iht ⊢
      split_ifs <;> simp_all

/-- **C58 (text).** In the report as read back, the three totals are the numbers of lines with that
priority; they add up to the number of lines if all rules have priority 1, 2 or 3. -/
theorem C58_text_totals_partial (info : RuleId → RuleInfo) (w : ResultsView)
    (hv : ∀ v ∈ w.answer .violations, LineClean info v)
    (hd : ∀ ch, ch ≠ .violations → ∀ v ∈ w.answer ch, DiagClean v) :
    ∃ s doc, textReport info w = .ok s ∧ readText s = some doc ∧
      doc.p1 = ((doc.violations.filter fun x => x.priority = 1).length : Nat) ∧
      doc.p2 = ((doc.violations.filter fun x => x.priority = 2).length : Nat) ∧
      doc.p3 = ((doc.violations.filter fun x => x.priority = 3).length : Nat) ∧
      ((∀ x ∈ doc.violations, x.priority = 1 ∨ x.priority = 2 ∨ x.priority = 3) →
        doc.p1 + doc.p2 + doc.p3 = (doc.violations.length : Nat)) := by
  obtain ⟨s, h1, h2⟩ := C55_text_reads_back_partial info w hv hd
  have hr : ∀ v ∈ w.answer .violations, v.rule ≠ none := fun v h => lineClean_rule (hv v h)
  have hc := fun p => countWithPriority_records info p _ hr
  refine ⟨s, _, h1, h2, ?_, ?_, ?_, ?_⟩
  · exact congrArg _ (hc 1)
  · exact congrArg _ (hc 2)
  · exact congrArg _ (hc 3)
  · intro hall
    simp only [hc] at hall ⊢
    rw [← Int.natCast_add, ← Int.natCast_add]
    apply congrArg
    generalize lineRecords info (w.answer .violations) = l at hall
    clear hc hr h1 h2
    induction l with
    | nil => rfl
    | cons x l ih =>
      have := ih (fun y hy => hall y (by simp [hy]))
      rcases hall x (by simp) with e | e | e <;>
        simp [List.filter_cons, e] <;> omega

/-- **C58 is false in general.** A rule with another priority is in the body and in no total. -/
theorem C58_other_priority_witness :
    ∃ s doc, textReport (fun _ => ⟨"r".toList, "c".toList, 4⟩) (sampleView "a.m" "long") = .ok s ∧
      readText s = some doc ∧ doc.violations.length = 1 ∧ doc.p1 = 0 ∧ doc.p2 = 0 ∧ doc.p3 = 0 := by
  refine ⟨_, (readText _).get (by decide +kernel), rfl, (Option.some_get _).symm, ?_, ?_, ?_, ?_⟩ <;>
    decide +kernel

/-! ## Time -/

theorem decimal_length (k : Nat) : ∀ n, n < 10 ^ (k + 1) → (decimal n).length ≤ k + 1 := by
  induction k with
  | zero => intro n h; rw [decimal, if_pos (by omega)]; simp
  | succ k ih =>
    intro n h
    rw [decimal]
    split_ifs
    · simp
    · have := ih (n / 10) (by rw [Nat.pow_succ] at h; omega)
      simp only [List.length_append, List.length_cons, List.length_nil]
      omega

theorem readNat_zeros (k : Nat) (s : Str) (h : s ≠ []) :
    readNat (List.replicate k '0' ++ s) = readNat s := by
  induction k with
  | zero => rfl
  | succ k ih =>
    rw [List.replicate_succ, List.cons_append, ← ih]
    unfold readNat
    have e : List.replicate k '0' ++ s ≠ [] := by simp [h]
    simp only [ne_eq, reduceCtorEq, not_false_eq_true, e, List.all_cons, List.foldl_cons, true_and]
    rfl

theorem formatPadded_nonneg (k n : Nat) (h : n < 10 ^ (k + 1)) :
    readNat (formatPadded (k + 1) n) = some n ∧ (formatPadded (k + 1) n).length = k + 1 ∧
      ∀ c ∈ formatPadded (k + 1) n, c.isDigit = true := by
  have hs : showNat n [] = decimal n := by rw [showNat_eq]; simp
  have hl := decimal_length k n h
  unfold formatPadded
  rw [if_neg (by omega)]
  simp only [Int.natAbs_natCast, hs]
  refine ⟨?_, ?_, ?_⟩
  · rw [readNat_zeros _ _ (decimal_ne_nil n), readNat_decimal]
  · simp; omega
  · intro c hc
    rcases List.mem_append.1 hc with hc | hc
    · rw [(List.mem_replicate.1 hc).2]; decide
    · exact decimal_all_digits n c hc

theorem formatPadded_four (n : Nat) (h : n < 10000) :
    readNat (formatPadded 4 n) = some n ∧ (formatPadded 4 n).length = 4 ∧
      ∀ c ∈ formatPadded 4 n, c.isDigit = true := formatPadded_nonneg 3 n h

theorem formatPadded_two (n : Nat) (h : n < 100) :
    readNat (formatPadded 2 n) = some n ∧ (formatPadded 2 n).length = 2 ∧
      ∀ c ∈ formatPadded 2 n, c.isDigit = true := formatPadded_nonneg 1 n h

theorem cut_digits (c : Char) (s r : Str) (hs : ∀ d ∈ s, d.isDigit = true) (hc : c.isDigit = false) :
    cut c (s ++ c :: r) = some (s, r) := by
  apply cut_append
  intro hm
  rw [hs c hm] at hc
  cases hc

/-- **C57 (XML).** For every moment in the years 0 to 9999 the date in the report reads as the
calendar date with the month one too small. -/
theorem C57_datetime_partial (tm : Tm) (h : TmValid tm) :
    ∃ s, xmlDatetime (some tm) = .ok ("<datetime>".toList ++ s ++ "</datetime>".toList) ∧
      readDatetime s = some ((calendar tm).1, (calendar tm).2.1 - 1, (calendar tm).2.2) := by
  obtain ⟨hy0, hy1, ha0, ha1, hb0, hb1, hc0, hc1, hd0, hd1, he0, he1⟩ := h
  refine ⟨datetimeText tm, xmlDatetime_eq tm ⟨by omega, by omega⟩, ?_⟩
  obtain ⟨y, hy⟩ := Int.eq_ofNat_of_zero_le (show 0 ≤ tm.year + 1900 by omega)
  obtain ⟨a, ha⟩ := Int.eq_ofNat_of_zero_le ha0
  obtain ⟨b, hb⟩ := Int.eq_ofNat_of_zero_le (show 0 ≤ tm.mday by omega)
  obtain ⟨c, hc⟩ := Int.eq_ofNat_of_zero_le hc0
  obtain ⟨d, hd⟩ := Int.eq_ofNat_of_zero_le hd0
  obtain ⟨e, he⟩ := Int.eq_ofNat_of_zero_le he0
  obtain ⟨ry, ly, dy⟩ := formatPadded_four y (by omega)
  obtain ⟨ra, la, da⟩ := formatPadded_two a (by omega)
  obtain ⟨rb, lb, db⟩ := formatPadded_two b (by omega)
  obtain ⟨rc, lc, dc⟩ := formatPadded_two c (by omega)
  obtain ⟨rd, ld, dd⟩ := formatPadded_two d (by omega)
  obtain ⟨re, le, de⟩ := formatPadded_two e (by omega)
  have ht : datetimeText tm = formatPadded 4 y ++ '-' :: (formatPadded 2 a ++ '-' :: (formatPadded 2 b ++
      'T' :: (formatPadded 2 c ++ ':' :: (formatPadded 2 d ++ ':' :: (formatPadded 2 e ++ ['Z']))))) := by
    unfold datetimeText
    rw [hy, ha, hb, hc, hd, he, List.take_of_length_le]
    · simp only [List.append_assoc, List.cons_append, List.nil_append]
    · simp only [List.length_append, List.length_cons, List.length_nil]
      omega
  rw [ht]
  generalize formatPadded 4 (y : Int) = fy at ry ly dy ⊢
  generalize formatPadded 2 (a : Int) = fa at ra la da ⊢
  generalize formatPadded 2 (b : Int) = fb at rb lb db ⊢
  generalize formatPadded 2 (c : Int) = fc at rc lc dc ⊢
  generalize formatPadded 2 (d : Int) = fd at rd ld dd ⊢
  generalize formatPadded 2 (e : Int) = fe at re le de ⊢
  unfold readDatetime calendar
  simp only [splitAtChars, cut_digits '-' fy _ dy (by decide), cut_digits '-' fa _ da (by decide),
    cut_digits 'T' fb _ db (by decide), cut_digits ':' fc _ dc (by decide),
    cut_digits ':' fd _ dd (by decide), cut_digits 'Z' fe _ de (by decide), Option.bind_some,
    if_true, Option.map_some, readFixed, ly, la, lb, lc, ld, le, ry, ra, rb, rc, rd, re,
    Option.bind_eq_bind, Option.pure_def, Option.some.injEq, Prod.mk.injEq]
  omega

theorem formatPadded_any (z : Int) (h : IsInt32 z) :
    readInt (formatPadded 4 z) = some z ∧ 4 ≤ (formatPadded 4 z).length ∧ (formatPadded 4 z).length ≤ 11 ∧
      (4 < (formatPadded 4 z).length → ∀ c s, formatPadded 4 z = c :: s →
        c ≠ '0' ∧ (c = '-' → s.head? ≠ some '0')) := by
  obtain ⟨h0, h1⟩ := h
  have hs : showNat z.natAbs [] = decimal z.natAbs := by rw [showNat_eq]; simp
  have hl := decimal_length 9 z.natAbs (by omega)
  have hne := decimal_ne_nil z.natAbs
  have hpos := List.length_pos_iff.2 hne
  have hd := decimal_all_digits z.natAbs
  unfold formatPadded
  dsimp only
  rw [hs]
  by_cases hz : z < 0
  · rw [if_pos hz]
    refine ⟨?_, ?_, ?_, ?_⟩
    · have hr : ∀ t n, readNat t = some n → readInt ('-' :: t) = some (-(n : Int)) := by
        intro t n ht
        simp [readInt, ht]
      rw [hr _ z.natAbs (by rw [readNat_zeros _ _ hne, readNat_decimal])]
      rw [show -(z.natAbs : Int) = z by omega]
    · simp; omega
    · simp; omega
    · intro hlong c s e
      injection e with e1 e2
      subst e1
      refine ⟨by decide, fun _ => ?_⟩
      have hlen : 3 < (decimal z.natAbs).length := by
        simp at hlong; omega
      rw [← e2, show 4 - 1 - (decimal z.natAbs).length = 0 by omega]
      cases hdd : decimal z.natAbs with
      | nil => exact absurd hdd hne
      | cons c s =>
        have hs' : s ≠ [] := by
          rintro rfl; rw [hdd] at hlen; simp at hlen
        exact fun e => decimal_head _ _ _ hdd hs' (Option.some.inj e)
  · rw [if_neg hz]
    have hr : readNat (List.replicate (4 - (decimal z.natAbs).length) '0' ++ decimal z.natAbs) =
        some z.natAbs := by rw [readNat_zeros _ _ hne, readNat_decimal]
    refine ⟨?_, ?_, ?_, ?_⟩
    · have hnm : ∀ c ∈ List.replicate (4 - (decimal z.natAbs).length) '0' ++ decimal z.natAbs, c ≠ '-' := by
        intro c hc e
        subst e
        rcases List.mem_append.1 hc with hc | hc
        · exact absurd (List.mem_replicate.1 hc).2 (by decide)
        · exact absurd (hd _ hc) (by decide)
      generalize List.replicate (4 - (decimal z.natAbs).length) '0' ++ decimal z.natAbs = t at hr hnm
      unfold readInt
      split
      · exact absurd rfl (hnm _ List.mem_cons_self)
      · rw [hr]
        show some (z.natAbs : Int) = some z
        rw [show (z.natAbs : Int) = z by omega]
    · simp; omega
    · simp; omega
    · intro hlong c s e
      have hlen : 4 < (decimal z.natAbs).length := by
        simp at hlong; omega
      rw [show 4 - (decimal z.natAbs).length = 0 by omega] at e
      change decimal z.natAbs = c :: s at e
      have hs' : s ≠ [] := by
        rintro rfl; rw [e] at hlen; simp at hlen
      refine ⟨decimal_head _ _ _ e hs', fun hc => ?_⟩
      subst hc
      exact absurd (hd _ (e ▸ List.mem_cons_self)) (by decide)

/-- **C57 (XML).** The same for every year that an `int` can hold: the year is written with a sign if it is
before the year 0 and with at least four characters, and nothing of the date is cut off. -/
theorem C57_any_year_partial (tm : Tm) (hy : IsInt32 (tm.year + 1900)) (h : TmValid { tm with year := 100 }) :
    ∃ year rest,
      xmlDatetime (some tm) = .ok ("<datetime>".toList ++ (year ++ '-' :: rest) ++ "</datetime>".toList) ∧
      readInt year = some (tm.year + 1900) ∧ 4 ≤ year.length ∧
      (4 < year.length → ∀ c s, year = c :: s → c ≠ '0' ∧ (c = '-' → s.head? ≠ some '0')) ∧
      readDatetime ("2000-".toList ++ rest) = some (2000, tm.mon, tm.mday, tm.hour, tm.min, tm.sec) := by
  obtain ⟨f1, f2, f3, f4⟩ := formatPadded_any _ hy
  obtain ⟨s, hs1, hs2⟩ := C57_datetime_partial _ h
  obtain ⟨-, -, ha0, ha1, hb0, hb1, hc0, hc1, hd0, hd1, he0, he1⟩ := h
  dsimp only at ha0 ha1 hb0 hb1 hc0 hc1 hd0 hd1 he0 he1
  obtain ⟨a, ha⟩ := Int.eq_ofNat_of_zero_le ha0
  obtain ⟨b, hb⟩ := Int.eq_ofNat_of_zero_le (show 0 ≤ tm.mday by omega)
  obtain ⟨c, hc⟩ := Int.eq_ofNat_of_zero_le hc0
  obtain ⟨d, hd⟩ := Int.eq_ofNat_of_zero_le hd0
  obtain ⟨e, he⟩ := Int.eq_ofNat_of_zero_le he0
  obtain ⟨-, la, -⟩ := formatPadded_two a (by omega)
  obtain ⟨-, lb, -⟩ := formatPadded_two b (by omega)
  obtain ⟨-, lc, -⟩ := formatPadded_two c (by omega)
  obtain ⟨-, ld, -⟩ := formatPadded_two d (by omega)
  obtain ⟨-, le, -⟩ := formatPadded_two e (by omega)
  have ht : ∀ y : Int, (formatPadded 4 (y + 1900)).length ≤ 11 → datetimeText { tm with year := y } =
      formatPadded 4 (y + 1900) ++ '-' :: (formatPadded 2 a ++ '-' :: (formatPadded 2 b ++
      'T' :: (formatPadded 2 c ++ ':' :: (formatPadded 2 d ++ ':' :: (formatPadded 2 e ++ ['Z']))))) := by
    intro y hy
    unfold datetimeText
    dsimp only
    rw [ha, hb, hc, hd, he, List.take_of_length_le]
    · simp only [List.append_assoc, List.cons_append, List.nil_append]
    · simp only [List.length_append, List.length_cons, List.length_nil]
      omega
  generalize (formatPadded 2 a ++ '-' :: (formatPadded 2 b ++
      'T' :: (formatPadded 2 c ++ ':' :: (formatPadded 2 d ++ ':' :: (formatPadded 2 e ++ ['Z']))))) = rest at ht
  have hsame := xmlDatetime_eq { tm with year := 100 } ⟨by show (-2147483648 : Int) ≤ 100 + 1900; decide,
    by show (100 + 1900 : Int) ≤ 2147483647; decide⟩
  rw [hsame, ht 100 (by decide +kernel)] at hs1
  have e1 := Outcome.ok.inj hs1
  have e2 := List.append_cancel_left (List.append_cancel_right e1)
  refine ⟨_, rest, ?_, f1, f2, f4, ?_⟩
  · rw [xmlDatetime_eq tm hy]
    have := ht tm.year f3
    rw [show ({ tm with year := tm.year } : Tm) = tm from rfl] at this
    rw [this]
  · rw [← e2] at hs2
    refine Eq.trans (congrArg readDatetime ?_) (hs2.trans ?_)
    · have : formatPadded 4 (100 + 1900) = chars! "2000" := by decide +kernel
      rw [this]
      rfl
    · show some ((100 + 1900 : Int), tm.mon + 1 - 1, tm.mday, tm.hour, tm.min, tm.sec) = _
      rw [show tm.mon + 1 - 1 = tm.mon by omega]
      rfl

/-- **C57 is false (XML).** The date in the report is never the calendar date. -/
theorem C57_never_calendar (tm : Tm) (h : TmValid tm) (s : Str)
    (hs : xmlDatetime (some tm) = .ok ("<datetime>".toList ++ s ++ "</datetime>".toList)) :
    readDatetime s ≠ some (calendar tm) := by
  obtain ⟨t, h1, h2⟩ := C57_datetime_partial tm h
  rw [h1] at hs
  have e : t = s := by
    have := Outcome.ok.inj hs
    rw [List.append_assoc, List.append_assoc] at this
    exact List.append_cancel_right (List.append_cancel_left this)
  rw [← e, h2]
  intro hc
  have := congrArg (fun o => o.map fun p => p.2.1) hc
  simp only [calendar, Option.map_some, Option.some.injEq] at this
  omega

/-- The year before the year 0, and a year of five digits. -/
example : xmlDatetime (some ⟨-1901, 4, 1, 0, 0, 0⟩) = .ok "<datetime>-001-04-01T00:00:00Z</datetime>".toList ∧
    xmlDatetime (some ⟨10445, 4, 1, 0, 0, 0⟩) = .ok "<datetime>12345-04-01T00:00:00Z</datetime>".toList := by
  decide +kernel

/-- In January the month is `00`. -/
theorem C57_january_witness :
    xmlDatetime (some ⟨125, 0, 31, 23, 5, 9⟩) = .ok "<datetime>2025-00-31T23:05:09Z</datetime>".toList := by
  decide +kernel

/-- **C57.** Outside the range of `gmtime` or of `int` years the XML report is undefined behaviour. -/
theorem C57_datetime_ub (info : RuleId → RuleInfo) (w : ResultsView) :
    xmlReport info none w = .ub ∧
      ∀ tm : Tm, ¬ IsInt32 (tm.year + 1900) → xmlReport info (some tm) w = .ub := by
  refine ⟨rfl, fun tm h => ?_⟩
  have e : checkInt32 (tm.year + 1900) = .ub := by
    unfold checkInt32; exact if_neg h
  unfold xmlReport xmlDatetime
  dsimp only
  rw [e]
  rfl

/-- **C57 (JSON).** The time stamp is the time as long as it fits into an `int`, and not after that
(19 January 2038). -/
theorem C57_json_timestamp_iff (now : Int) : toInt32 now = now ↔ IsInt32 now := by
  unfold toInt32 IsInt32
  constructor
  · intro h
    have := Int.emod_nonneg (now + 2147483648) (show (4294967296 : Int) ≠ 0 by decide)
    have := Int.emod_lt_of_pos (now + 2147483648) (show (0 : Int) < 4294967296 by decide)
    omega
  · intro h
    have := Int.emod_eq_of_lt (a := now + 2147483648) (b := 4294967296) (by omega) (by omega)
    omega

example : jsonHeader 2147483648 versionText =
    "\"version\":\"24.11\",\"url\":\"https://oclint.org\",\"timestamp\":-2147483648,".toList := by
  decide +kernel

end Oclint
