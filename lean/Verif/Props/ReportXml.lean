import Verif.Lemmas.ReadXml

/-!
# C54 – C56, C58: XML escaping, the XML and PMD reports and the HTML table

For results whose texts are free of the special characters the reports are well formed XML and read
back as exactly the collected results.
-/

set_option linter.unusedSimpArgs false

namespace Oclint
open Spec

/-! ## C54 -/

theorem xmlEscapeLoop_eq (s : Str) : ∀ out, xmlEscapeLoop out s = out ++ s.flatMap xmlEscapeChar := by
  induction s with
  | nil => intro out; simp [xmlEscapeLoop]
  | cons c s ih => intro out; rw [xmlEscapeLoop, ih]; simp

theorem xmlEscape_eq (s : Str) : xmlEscape s = s.flatMap xmlEscapeChar := by
  rw [xmlEscape, xmlEscapeLoop_eq]; rfl

theorem decode_escapeChar (c : Char) : decodeEntities (xmlEscapeChar c) = some [c] := by
  unfold xmlEscapeChar
  split_ifs with h1 h2 h3 h4 h5
  · subst h1; decide
  · subst h2; decide
  · subst h3; decide
  · subst h4; decide
  · subst h5; decide
  · exact decodeFrom_plain [c] (by simpa using ⟨h4, h1⟩)

/-- **C54.** Decoding the entities of an escaped text gives back the text. -/
theorem C54_decode_escape (s : Str) : decodeEntities (xmlEscape s) = some s := by
  rw [xmlEscape_eq]
  induction s with
  | nil => rfl
  | cons c s ih =>
    have := decodeEntities_append _ _ _ _ (decode_escapeChar c) ih
    simpa using this

theorem mem_escapeChar (c d : Char) (h : d ∈ xmlEscapeChar c) :
    d ≠ '<' ∧ d ≠ '>' ∧ d ≠ '"' ∧ d ≠ '\'' := by
  have fixed : ∀ s : Str, (∀ d ∈ s, d ≠ '<' ∧ d ≠ '>' ∧ d ≠ '"' ∧ d ≠ '\'') → d ∈ s →
      d ≠ '<' ∧ d ≠ '>' ∧ d ≠ '"' ∧ d ≠ '\'' := fun s hs hd => hs d hd
  unfold xmlEscapeChar at h
  split_ifs at h with h1 h2 h3 h4 h5
  · exact fixed _ (by decide) h
  · exact fixed _ (by decide) h
  · exact fixed _ (by decide) h
  · exact fixed _ (by decide) h
  · exact fixed _ (by decide) h
  · simp only [List.mem_singleton] at h
    subst h
    exact ⟨h1, h2, h3, h5⟩

/-- **C54.** An escaped text contains no raw angle bracket or quote. -/
theorem C54_no_specials (s : Str) :
    ∀ c ∈ xmlEscape s, c ≠ '<' ∧ c ≠ '>' ∧ c ≠ '"' ∧ c ≠ '\'' := by
  intro c hc
  rw [xmlEscape_eq, List.mem_flatMap] at hc
  obtain ⟨d, -, hd⟩ := hc
  exact mem_escapeChar d c hd

/-- **C54.** Distinct texts stay distinct. -/
theorem C54_injective (s t : Str) (h : xmlEscape s = xmlEscape t) : s = t := by
  have := C54_decode_escape s
  rw [h, C54_decode_escape t] at this
  simpa using this.symm

/-- **C54.** Texts without special characters are written unchanged. -/
theorem C54_plain (s : Str)
    (h : ∀ c ∈ s, c ≠ '<' ∧ c ≠ '>' ∧ c ≠ '"' ∧ c ≠ '&' ∧ c ≠ '\'') : xmlEscape s = s := by
  rw [xmlEscape_eq]
  induction s with
  | nil => rfl
  | cons c s ih =>
    obtain ⟨h1, h2, h3, h4, h5⟩ := h c (by simp)
    have e : xmlEscapeChar c = [c] := by
      unfold xmlEscapeChar
      rw [if_neg h1, if_neg h2, if_neg h3, if_neg h4, if_neg h5]
    rw [List.flatMap_cons, e, ih (fun d hd => h d (by simp [hd]))]
    rfl

example : xmlEscape "if (a < b && c)".toList = "if (a &lt; b &amp;&amp; c)".toList := by decide

/-! ## The XML report -/

/-- The texts of a violation mean themselves in attribute values. -/
def XmlClean (info : RuleId → RuleInfo) (v : Violation) : Prop :=
  XmlSafe v.path ∧ XmlSafe v.message ∧
    ∀ r, v.rule = some r → XmlSafe (info r).name ∧ XmlSafe (info r).category

theorem xmlAttribute_run (tag : Str) (as : List (Str × Str)) (k v r : Str) (hk : isName k = true)
    (hv : XmlSafe v) :
    lexRun (.afterValue tag as) (xmlAttribute k v ++ r) =
      lexRun (.afterValue tag (as ++ [(k, v)])) r := by
  unfold xmlAttribute
  simp only [List.append_assoc, List.cons_append, List.nil_append]
  rw [lex_valueSpace, lex_attr _ _ _ _ _ hk (xmlSafe_quote hv)]

/-- `<tag key="value"` -/
theorem xmlFirst_run (tag k v r : Str) (ht : isName tag = true) (hk : isName k = true)
    (hv : XmlSafe v) :
    lexRun .lt (tag ++ (xmlAttribute k v ++ r)) = lexRun (.afterValue tag [(k, v)]) r := by
  unfold xmlAttribute
  simp only [List.append_assoc, List.cons_append, List.nil_append]
  rw [lex_openSpace _ _ ht, lex_attr _ _ _ _ _ hk (xmlSafe_quote hv)]
  rfl

theorem lit_violation : "<violation".toList = '<' :: "violation".toList := by decide
theorem lit_violationEnd :
    "></violation>".toList = '>' :: '<' :: '/' :: ("violation".toList ++ ['>']) := by decide

theorem xmlViolation_run (info : RuleId → RuleInfo) (v : Violation) (h : XmlClean info v) (r : Str) :
    lexRun (.text []) (xmlViolation info v ++ r) =
      emit (violationXml info v) (lexRun (.text []) r) := by
  obtain ⟨hp, hm, hr⟩ := h
  unfold xmlViolation violationXml
  rw [lit_violation, lit_violationEnd]
  simp only [List.append_assoc, List.cons_append, List.nil_append, toStringInt_eq]
  rw [lex_lt, xmlFirst_run _ _ _ _ (by decide) (by decide) hp,
    xmlAttribute_run _ _ _ _ _ (by decide) (xmlSafe_decimalInt _),
    xmlAttribute_run _ _ _ _ _ (by decide) (xmlSafe_decimalInt _)]
  unfold xmlEnd xmlRule
  split_ifs
  · cases hv : v.rule with
    | none =>
      simp only [List.append_assoc, List.cons_append, List.nil_append, toStringInt_eq]
      rw [xmlAttribute_run _ _ _ _ _ (by decide) (xmlSafe_decimalInt _),
        xmlAttribute_run _ _ _ _ _ (by decide) (xmlSafe_decimalInt _),
        xmlAttribute_run _ _ _ _ _ (by decide) hm, lex_valueEnd, lex_lt, lex_close _ _ (by decide)]
      simp only [emit_emit, textTok, if_true, List.append_assoc, List.cons_append, List.nil_append]
    | some i =>
      simp only [List.append_assoc, List.cons_append, List.nil_append, toStringInt_eq]
      rw [xmlAttribute_run _ _ _ _ _ (by decide) (xmlSafe_decimalInt _),
        xmlAttribute_run _ _ _ _ _ (by decide) (xmlSafe_decimalInt _),
        xmlAttribute_run _ _ _ _ _ (by decide) (hr i hv).1,
        xmlAttribute_run _ _ _ _ _ (by decide) (hr i hv).2,
        xmlAttribute_run _ _ _ _ _ (by decide) (xmlSafe_decimalInt _),
        xmlAttribute_run _ _ _ _ _ (by decide) hm, lex_valueEnd, lex_lt, lex_close _ _ (by decide)]
      simp only [emit_emit, textTok, if_true, List.append_assoc, List.cons_append, List.nil_append]
  · cases hv : v.rule with
    | none =>
      simp only [List.append_assoc, List.cons_append, List.nil_append]
      rw [xmlAttribute_run _ _ _ _ _ (by decide) hm, lex_valueEnd, lex_lt, lex_close _ _ (by decide)]
      simp only [emit_emit, textTok, if_true, List.append_assoc, List.cons_append, List.nil_append]
    | some i =>
      simp only [List.append_assoc, List.cons_append, List.nil_append, toStringInt_eq]
      rw [xmlAttribute_run _ _ _ _ _ (by decide) (hr i hv).1,
        xmlAttribute_run _ _ _ _ _ (by decide) (hr i hv).2,
        xmlAttribute_run _ _ _ _ _ (by decide) (xmlSafe_decimalInt _),
        xmlAttribute_run _ _ _ _ _ (by decide) hm, lex_valueEnd, lex_lt, lex_close _ _ (by decide)]
      simp only [emit_emit, textTok, if_true, List.append_assoc, List.cons_append, List.nil_append]

theorem xmlViolations_run (info : RuleId → RuleInfo) (vs : List Violation)
    (h : ∀ v ∈ vs, XmlClean info v) (r : Str) :
    lexRun (.text []) (xmlViolations info vs ++ r) =
      emit (vs.flatMap (violationXml info)) (lexRun (.text []) r) := by
  induction vs with
  | nil => rw [xmlViolations, List.flatMap_nil, emit_nil]; rfl
  | cons v vs ih =>
    rw [xmlViolations, List.append_assoc, xmlViolation_run info v (h v (by simp)),
      ih (fun w hw => h w (by simp [hw])), emit_emit, List.flatMap_cons]

theorem lit_property : "<property name=\"".toList =
    '<' :: ("property".toList ++ ' ' :: ("name".toList ++ ['=', '"'])) := by decide
theorem lit_propertyMid : "\">".toList = ['"', '>'] := by decide
theorem lit_propertyEnd : "</property>".toList = '<' :: '/' :: ("property".toList ++ ['>']) := by decide

theorem xmlProperty_run (key : Str) (hk : XmlSafe key) (n : Int) (r : Str) :
    lexRun (.text []) (xmlProperty key n ++ r) =
      emit (propertyXml key n) (lexRun (.text []) r) := by
  unfold xmlProperty propertyXml
  rw [lit_property, lit_propertyMid, lit_propertyEnd, toStringInt_eq]
  simp only [List.append_assoc, List.cons_append, List.nil_append]
  rw [lex_lt, lex_openSpace _ _ (by decide), lex_attr _ _ _ _ _ (by decide) (xmlSafe_quote hk), lex_valueEnd,
    lex_textLt _ _ (fun hc => (decimalInt_plain n _ hc).2 rfl), if_neg (decimalInt_ne_nil n),
    lex_close _ _ (by decide)]
  simp only [emit_emit, textTok, if_true, List.cons_append, List.nil_append]

/-- A fixed opening tag between other text. -/
theorem lex_tag (n r : Str) (h : isName n = true) :
    lexRun (.text []) ('<' :: (n ++ '>' :: r)) = emit [.open n []] (lexRun (.text []) r) := by
  rw [lex_lt, lex_open _ _ h]
  simp only [textTok, if_true, emit_nil]

/-- A fixed closing tag. -/
theorem lex_endTag (n r : Str) (h : n.all nameChar = true) :
    lexRun (.text []) ('<' :: '/' :: (n ++ '>' :: r)) = emit [.close n] (lexRun (.text []) r) := by
  rw [lex_lt, lex_close _ _ h]
  simp only [textTok, if_true, emit_nil]

theorem lit_xmlPi : "<?xml version=\"1.0\" encoding=\"UTF-8\" ?>".toList =
    '<' :: '?' :: ("xml version=\"1.0\" encoding=\"UTF-8\" ".toList ++ ['?', '>']) := by decide
theorem lit_oclint : "<oclint version=\"".toList =
    '<' :: ("oclint".toList ++ ' ' :: ("version".toList ++ ['=', '"'])) := by decide
theorem lit_url : "\" url=\"".toList = '"' :: ' ' :: ("url".toList ++ ['=', '"']) := by decide
theorem lit_datetime : "<datetime>".toList = '<' :: ("datetime".toList ++ ['>']) := by decide
theorem lit_datetimeEnd : "</datetime>".toList = '<' :: '/' :: ("datetime".toList ++ ['>']) := by decide
theorem lit_summary : "<summary>".toList = '<' :: ("summary".toList ++ ['>']) := by decide
theorem lit_summaryEnd : "</summary>".toList = '<' :: '/' :: ("summary".toList ++ ['>']) := by decide
theorem lit_violations : "<violations>".toList = '<' :: ("violations".toList ++ ['>']) := by decide
theorem lit_violationsEnd : "</violations>".toList = '<' :: '/' :: ("violations".toList ++ ['>']) := by
  decide
theorem lit_csa : "<clangstaticanalyzer>".toList = '<' :: ("clangstaticanalyzer".toList ++ ['>']) := by
  decide
theorem lit_csaEnd : "</clangstaticanalyzer>".toList =
    '<' :: '/' :: ("clangstaticanalyzer".toList ++ ['>']) := by decide
theorem lit_oclintEnd : "</oclint>".toList = '<' :: '/' :: ("oclint".toList ++ ['>']) := by decide

/-- The text of the date element. -/
def datetimeText (tm : Tm) : Str :=
  (formatPadded 4 (tm.year + 1900) ++ ['-'] ++ formatPadded 2 tm.mon ++ ['-']
      ++ formatPadded 2 tm.mday ++ ['T'] ++ formatPadded 2 tm.hour ++ [':']
      ++ formatPadded 2 tm.min ++ [':'] ++ formatPadded 2 tm.sec ++ ['Z']).take 27

theorem xmlDatetime_eq (tm : Tm) (h : IsInt32 (tm.year + 1900)) :
    xmlDatetime (some tm) =
      .ok ("<datetime>".toList ++ datetimeText tm ++ "</datetime>".toList) := by
  unfold xmlDatetime
  have e : checkInt32 (tm.year + 1900) = .ok (tm.year + 1900) := by
    unfold checkInt32; exact if_pos h
  simp only [e, bind_ok', Outcome.pure_eq, datetimeText]

theorem mem_formatPadded (w : Nat) (z : Int) (c : Char) (h : c ∈ formatPadded w z) :
    c.isDigit = true ∨ c = '-' := by
  have hs : ∀ n, showNat n [] = decimal n := by intro n; rw [showNat_eq]; simp
  have rep : ∀ n, c ∈ List.replicate n '0' → c.isDigit = true := by
    intro n hn; rw [(List.mem_replicate.1 hn).2]; decide
  unfold formatPadded at h
  simp only [hs] at h
  split at h
  · simp only [List.mem_cons, List.mem_append] at h
    rcases h with h | h | h
    · exact .inr h
    · exact .inl (rep _ h)
    · exact .inl (decimal_all_digits _ _ h)
  · simp only [List.mem_append] at h
    rcases h with h | h
    · exact .inl (rep _ h)
    · exact .inl (decimal_all_digits _ _ h)

theorem xmlSafe_digit {c : Char} (h : c.isDigit = true ∨ c = '-') :
    c ≠ '<' ∧ c ≠ '&' ∧ c ≠ '"' ∧ 32 ≤ c.toNat := by
  refine ⟨?_, ?_, ?_, ?_⟩
  · rintro rfl; revert h; decide
  · rintro rfl; revert h; decide
  · rintro rfl; revert h; decide
  · rcases h with h | h
    · simp only [Char.isDigit, Bool.and_eq_true, decide_eq_true_eq] at h
      have h1 : 48 ≤ c.toNat := h.1
      omega
    · subst h; decide

theorem datetimeText_safe (tm : Tm) : XmlSafe (datetimeText tm) := by
  intro c hc
  have hc := List.mem_of_mem_take hc
  simp only [List.mem_append, List.mem_singleton] at hc
  have fixed : ∀ d : Char, xmlSafeB [d] = true → c = d → c ≠ '<' ∧ c ≠ '&' ∧ c ≠ '"' ∧ 32 ≤ c.toNat := by
    intro d hd e
    exact xmlSafe_of [d] hd c (by simp [e])
  rcases hc with ((((((((((h | h) | h) | h) | h) | h) | h) | h) | h) | h) | h) | h
  all_goals first
    | exact xmlSafe_digit (mem_formatPadded _ _ _ h)
    | exact fixed _ (by decide) h

theorem datetimeText_ne_nil (tm : Tm) : datetimeText tm ≠ [] := by
  unfold datetimeText
  obtain ⟨c, s, h⟩ : ∃ c s, formatPadded 4 (tm.year + 1900) = c :: s := by
    apply List.exists_cons_of_ne_nil
    have hs : ∀ n, showNat n [] = decimal n := by intro n; rw [showNat_eq]; simp
    unfold formatPadded
    simp only [hs]
    split
    · simp
    · simp [decimal_ne_nil]
  rw [h]
  simp

/-- What the reporter writes, from the pieces. -/
def xmlText (info : RuleId → RuleInfo) (dt : Str) (w : ResultsView) (n1 n2 n3 : Nat) : Str :=
  xmlHeader versionText ++ ("<datetime>".toList ++ dt ++ "</datetime>".toList)
    ++ ("<summary>".toList
      ++ xmlProperty "number of files".toList (numberOfFiles w.collector)
      ++ xmlProperty "files with violations".toList (numberOfFilesWithViolations w.collector)
      ++ xmlProperty "number of priority 1 violations".toList n1
      ++ xmlProperty "number of priority 2 violations".toList n2
      ++ xmlProperty "number of priority 3 violations".toList n3
      ++ "</summary>".toList)
    ++ "<violations>".toList ++ xmlViolations info (w.answer .violations) ++ "</violations>".toList
    ++ "<clangstaticanalyzer>".toList ++ xmlViolations info (w.answer .checkerBugs)
    ++ "</clangstaticanalyzer>".toList
    ++ "</oclint>".toList ++ endl

theorem priorityTotal_ok (info : RuleId → RuleInfo) (w : ResultsView) (p : Int)
    (h : ∀ v ∈ w.answer .violations, v.rule ≠ none) :
    priorityTotal info w p =
      .ok (countWithPriority (fun r => (info r).priority) p (w.answer .violations)) := by
  unfold priorityTotal numberOfViolationsWithPriority
  rw [countPriorityLoop_eq _ _ _ h]
  simp

theorem xmlReport_eq (info : RuleId → RuleInfo) (tm : Tm) (w : ResultsView)
    (ht : IsInt32 (tm.year + 1900)) (h : ∀ v ∈ w.answer .violations, v.rule ≠ none) :
    xmlReport info (some tm) w = .ok (xmlText info (datetimeText tm) w
      (countWithPriority (fun r => (info r).priority) 1 (w.answer .violations))
      (countWithPriority (fun r => (info r).priority) 2 (w.answer .violations))
      (countWithPriority (fun r => (info r).priority) 3 (w.answer .violations))) := by
  unfold xmlReport xmlSummary
  rw [xmlDatetime_eq tm ht, priorityTotal_ok info w 1 h, priorityTotal_ok info w 2 h,
    priorityTotal_ok info w 3 h]
  rfl

theorem xmlText_lex (info : RuleId → RuleInfo) (dt : Str) (w : ResultsView) (n1 n2 n3 : Nat)
    (hd : XmlSafe dt) (hne : dt ≠ [])
    (hv : ∀ v ∈ w.answer .violations, XmlClean info v)
    (hb : ∀ v ∈ w.answer .checkerBugs, XmlClean info v) :
    lexRun (.text []) (xmlText info dt w n1 n2 n3) = some (.text ['\n'],
      [.pi "xml version=\"1.0\" encoding=\"UTF-8\" ".toList,
        .open "oclint".toList [("version".toList, "24.11".toList), ("url".toList, "https://oclint.org".toList)],
        .open "datetime".toList [], .text dt, .close "datetime".toList,
        .open "summary".toList []]
      ++ (propertyXml "number of files".toList (numberOfFiles w.collector)
      ++ (propertyXml "files with violations".toList (numberOfFilesWithViolations w.collector)
      ++ (propertyXml "number of priority 1 violations".toList n1
      ++ (propertyXml "number of priority 2 violations".toList n2
      ++ (propertyXml "number of priority 3 violations".toList n3
      ++ ([.close "summary".toList, .open "violations".toList []]
      ++ ((w.answer .violations).flatMap (violationXml info)
      ++ ([.close "violations".toList, .open "clangstaticanalyzer".toList []]
      ++ ((w.answer .checkerBugs).flatMap (violationXml info)
      ++ [.close "clangstaticanalyzer".toList, .close "oclint".toList])))))))))) := by
  unfold xmlText xmlHeader versionText homepageText endl
  rw [lit_xmlPi, lit_oclint, lit_url, lit_propertyMid, lit_datetime, lit_datetimeEnd, lit_summary,
    lit_summaryEnd, lit_violations, lit_violationsEnd, lit_csa, lit_csaEnd, lit_oclintEnd]
  simp only [List.append_assoc, List.cons_append, List.nil_append]
  rw [lex_lt, lex_pi _ _ (by decide), lex_lt, lex_openSpace _ _ (by decide),
    lex_attr _ _ _ _ _ (by decide) (by decide), lex_valueSpace,
    lex_attr _ _ _ _ _ (by decide) (by decide), lex_valueEnd, lex_tag _ _ (by decide),
    lex_textLt _ _ (fun hc => (hd _ hc).1 rfl), if_neg hne, lex_close _ _ (by decide),
    lex_tag _ _ (by decide), xmlProperty_run _ (xmlSafe_of _ (by decide)),
    xmlProperty_run _ (xmlSafe_of _ (by decide)), xmlProperty_run _ (xmlSafe_of _ (by decide)),
    xmlProperty_run _ (xmlSafe_of _ (by decide)), xmlProperty_run _ (xmlSafe_of _ (by decide)),
    lex_endTag _ _ (by decide), lex_tag _ _ (by decide), xmlViolations_run info _ hv,
    lex_endTag _ _ (by decide), lex_tag _ _ (by decide), xmlViolations_run info _ hb,
    lex_endTag _ _ (by decide), lex_endTag _ _ (by decide)]
  have e : lexRun (.text []) ['\n'] = some (.text ['\n'], []) := by decide
  rw [e]
  simp only [emit_emit, emit_some, textTok, if_true, List.append_assoc, List.cons_append,
    List.nil_append, List.append_nil]

theorem all_app {p : Char → Bool} {a b : Str} (ha : a.all p = true) (hb : b.all p = true) :
    (a ++ b).all p = true := by rw [List.all_append, ha, hb]; rfl

theorem xmlAttribute_chars (k v : Str) (hk : k.all xmlChar = true) (hv : XmlSafe v) :
    (xmlAttribute k v).all xmlChar = true := by
  unfold xmlAttribute
  exact all_app (all_app (all_app (all_app (by decide) hk) (by decide)) (xmlChar_safe v hv)) (by decide)

theorem xmlViolation_chars (info : RuleId → RuleInfo) (v : Violation) (h : XmlClean info v) :
    (xmlViolation info v).all xmlChar = true := by
  obtain ⟨hp, hm, hr⟩ := h
  have he : (xmlEnd v).all xmlChar = true := by
    unfold xmlEnd
    split_ifs
    · rw [toStringInt_eq, toStringInt_eq]
      exact all_app (xmlAttribute_chars _ _ (by decide) (xmlSafe_decimalInt _))
        (xmlAttribute_chars _ _ (by decide) (xmlSafe_decimalInt _))
    · rfl
  have hru : (xmlRule info v).all xmlChar = true := by
    unfold xmlRule
    cases hv : v.rule with
    | none => rfl
    | some i =>
      simp only [toStringInt_eq]
      exact all_app (all_app (xmlAttribute_chars _ _ (by decide) (hr i hv).1)
        (xmlAttribute_chars _ _ (by decide) (hr i hv).2))
        (xmlAttribute_chars _ _ (by decide) (xmlSafe_decimalInt _))
  unfold xmlViolation
  rw [toStringInt_eq, toStringInt_eq]
  exact all_app (all_app (all_app (all_app (all_app (all_app (all_app (by decide)
    (xmlAttribute_chars _ _ (by decide) hp)) (xmlAttribute_chars _ _ (by decide) (xmlSafe_decimalInt _)))
    (xmlAttribute_chars _ _ (by decide) (xmlSafe_decimalInt _))) he) hru)
    (xmlAttribute_chars _ _ (by decide) hm)) (by decide)

theorem xmlViolations_chars (info : RuleId → RuleInfo) (vs : List Violation)
    (h : ∀ v ∈ vs, XmlClean info v) : (xmlViolations info vs).all xmlChar = true := by
  induction vs with
  | nil => rfl
  | cons v vs ih =>
    rw [xmlViolations]
    exact all_app (xmlViolation_chars info v (h v (by simp))) (ih (fun w hw => h w (by simp [hw])))

theorem xmlProperty_chars (k : Str) (hk : k.all xmlChar = true) (n : Int) :
    (xmlProperty k n).all xmlChar = true := by
  unfold xmlProperty
  rw [toStringInt_eq]
  exact all_app (all_app (all_app (all_app (by decide) hk) (by decide)) (xmlChar_decimalInt n))
    (by decide)

theorem xmlText_chars (info : RuleId → RuleInfo) (dt : Str) (w : ResultsView) (n1 n2 n3 : Nat)
    (hd : XmlSafe dt) (hv : ∀ v ∈ w.answer .violations, XmlClean info v)
    (hb : ∀ v ∈ w.answer .checkerBugs, XmlClean info v) :
    (xmlText info dt w n1 n2 n3).all xmlChar = true := by
  have h1 : (xmlHeader versionText).all xmlChar = true := by decide
  unfold xmlText
  refine all_app (all_app (all_app (all_app (all_app (all_app (all_app (all_app (all_app (all_app h1
    (all_app (all_app (by decide) (xmlChar_safe dt hd)) (by decide))) ?_) (by decide))
    (xmlViolations_chars info _ hv)) (by decide)) (by decide)) (xmlViolations_chars info _ hb))
    (by decide)) (by decide)) (by decide)
  exact all_app (all_app (all_app (all_app (all_app (all_app (by decide)
    (xmlProperty_chars _ (by decide) _)) (xmlProperty_chars _ (by decide) _))
    (xmlProperty_chars _ (by decide) _)) (xmlProperty_chars _ (by decide) _))
    (xmlProperty_chars _ (by decide) _)) (by decide)

theorem plainAttrs_cons (k v : Str) (as : List (Str × Str))
    (hv : ∀ c ∈ v, (c ≠ '&' ∧ c ≠ '<') ∧ 32 ≤ c.toNat) (h : PlainAttrs as) : PlainAttrs ((k, v) :: as) := by
  intro p hp
  rcases List.mem_cons.1 hp with rfl | hp
  · exact hv
  · exact h p hp

theorem plainAttrs_nil : PlainAttrs [] := by intro p hp; simp at hp

theorem plainAttrs_append (as bs : List (Str × Str)) (ha : PlainAttrs as) (hb : PlainAttrs bs) :
    PlainAttrs (as ++ bs) := by
  intro p hp
  rcases List.mem_append.1 hp with hp | hp
  · exact ha p hp
  · exact hb p hp

theorem violationXml_decode (info : RuleId → RuleInfo) (v : Violation) (h : XmlClean info v) :
    decodeToks (violationXml info v) = some (violationXml info v) := by
  obtain ⟨hp, hm, hr⟩ := h
  unfold violationXml
  refine decodeToks_cons _ _ _ _ (decodeTok_open _ _ ?_) rfl
  refine plainAttrs_append _ _ (plainAttrs_append _ _ (plainAttrs_append _ _ ?_ ?_) ?_) ?_
  · exact plainAttrs_cons _ _ _ (xmlSafe_value hp) (plainAttrs_cons _ _ _ (decimalInt_value _)
      (plainAttrs_cons _ _ _ (decimalInt_value _) plainAttrs_nil))
  · split_ifs
    · exact plainAttrs_cons _ _ _ (decimalInt_value _)
        (plainAttrs_cons _ _ _ (decimalInt_value _) plainAttrs_nil)
    · exact plainAttrs_nil
  · cases hv : v.rule with
    | none => exact plainAttrs_nil
    | some i =>
      exact plainAttrs_cons _ _ _ (xmlSafe_value (hr i hv).1) (plainAttrs_cons _ _ _
        (xmlSafe_value (hr i hv).2) (plainAttrs_cons _ _ _ (decimalInt_value _) plainAttrs_nil))
  · exact plainAttrs_cons _ _ _ (xmlSafe_value hm) plainAttrs_nil

theorem propertyXml_decode (key : Str) (hk : XmlSafe key) (n : Int) :
    decodeToks (propertyXml key n) = some (propertyXml key n) := by
  unfold propertyXml
  exact decodeToks_cons _ _ _ _
    (decodeTok_open _ _ (plainAttrs_cons _ _ _ (xmlSafe_value hk) plainAttrs_nil))
    (decodeToks_cons _ _ _ _ (decodeTok_text _ (decimalInt_plain n)) rfl)

theorem violationXml_nested (info : RuleId → RuleInfo) (v : Violation) (m : Str) (st : List Str)
    (seen : Bool) (r : List Tok) :
    nested (m :: st) seen (violationXml info v ++ r) = nested (m :: st) seen r := by
  unfold violationXml
  simp only [List.cons_append, List.nil_append, nested, decide_true, Bool.true_and]
  split_ifs <;> cases v.rule <;>
    simp only [List.map_append, List.map_cons, List.map_nil, List.nil_append, List.append_nil] <;>
    (rw [decide_eq_true (by decide), Bool.true_and])

theorem violationsXml_nested (info : RuleId → RuleInfo) (vs : List Violation) (m : Str)
    (st : List Str) (seen : Bool) (r : List Tok) :
    nested (m :: st) seen (vs.flatMap (violationXml info) ++ r) = nested (m :: st) seen r := by
  induction vs with
  | nil => rfl
  | cons v vs ih => rw [List.flatMap_cons, List.append_assoc, violationXml_nested, ih]

theorem propertyXml_nested (key : Str) (n : Int) (m : Str) (st : List Str) (seen : Bool)
    (r : List Tok) : nested (m :: st) seen (propertyXml key n ++ r) = nested (m :: st) seen r := by
  unfold propertyXml
  simp only [List.cons_append, List.nil_append, nested, decide_true, Bool.true_and, List.map_cons,
    List.map_nil]
  rw [decide_eq_true (by decide), Bool.true_and]

theorem scanXml_of (s : Str) (acc : Str) (ts ts' : List Tok) (hc : s.all xmlChar = true)
    (hl : lexRun (.text []) s = some (.text acc, ts))
    (hd : decodeToks (ts ++ textTok acc) = some ts') : scanXml s = some ts' := by
  unfold scanXml
  rw [hc, hl]
  exact hd

theorem readXml_of (s : Str) (ts : List Tok) (hs : scanXml s = some ts)
    (hn : nested [] false ts = true) : readXml s = some ts := by
  unfold readXml
  rw [hs]
  simp only [hn, if_true]

/-- **C55, C56, C58 (XML).** If no text contains `<`, `&`, a double quote or a control character, the
report is a well formed XML document and reads back as: version, url, date, the totals, then one
element per violation and one per checker finding, in order, each with all its fields. -/
theorem C55_xml_reads_back_partial (info : RuleId → RuleInfo) (tm : Tm) (w : ResultsView)
    (ht : IsInt32 (tm.year + 1900))
    (hrule : ∀ v ∈ w.answer .violations, v.rule ≠ none)
    (hv : ∀ v ∈ w.answer .violations, XmlClean info v)
    (hb : ∀ v ∈ w.answer .checkerBugs, XmlClean info v) :
    ∃ s dt, xmlReport info (some tm) w = .ok s ∧
      xmlDatetime (some tm) = .ok ("<datetime>".toList ++ dt ++ "</datetime>".toList) ∧
      readXml s = some (reportXml info dt (numberOfFiles w.collector)
        (numberOfFilesWithViolations w.collector) (w.answer .violations)
        (w.answer .checkerBugs)) := by
  refine ⟨_, datetimeText tm, xmlReport_eq info tm w ht hrule, xmlDatetime_eq tm ht, ?_⟩
  have hd := datetimeText_safe tm
  have hne := datetimeText_ne_nil tm
  refine readXml_of _ _ (scanXml_of _ _ _ _ (xmlText_chars info _ w _ _ _ hd hv hb)
    (xmlText_lex info _ w _ _ _ hd hne hv hb) ?_) ?_
  · unfold reportXml
    generalize countWithPriority (fun r => (info r).priority) 1 (w.answer .violations) = n1
    generalize countWithPriority (fun r => (info r).priority) 2 (w.answer .violations) = n2
    generalize countWithPriority (fun r => (info r).priority) 3 (w.answer .violations) = n3
    generalize datetimeText tm = dt at hd hne
    simp only [List.append_assoc]
    refine decodeToks_append _ _ _ _ ?_ (decodeToks_append _ _ _ _
      (propertyXml_decode _ (xmlSafe_of _ (by decide)) _) (decodeToks_append _ _ _ _
      (propertyXml_decode _ (xmlSafe_of _ (by decide)) _) (decodeToks_append _ _ _ _
      (propertyXml_decode _ (xmlSafe_of _ (by decide)) _) (decodeToks_append _ _ _ _
      (propertyXml_decode _ (xmlSafe_of _ (by decide)) _) (decodeToks_append _ _ _ _
      (propertyXml_decode _ (xmlSafe_of _ (by decide)) _) (decodeToks_append _ _ _ _
      rfl (decodeToks_append _ _ _ _
      (decodeToks_flatMap _ _ _ (fun v h => violationXml_decode info v (hv v h)))
      (decodeToks_append _ _ _ _ rfl (decodeToks_append _ _ _ _
      (decodeToks_flatMap _ _ _ (fun v h => violationXml_decode info v (hb v h))) ?_)))))))))
    · refine decodeToks_cons _ _ _ _ rfl (decodeToks_cons _ _ _ _ (by decide +kernel)
        (decodeToks_cons _ _ _ _ rfl (decodeToks_cons _ _ _ _ (decodeTok_text _ (xmlSafe_plain hd))
          rfl)))
    · decide +kernel
  · unfold reportXml
    simp only [List.append_assoc, List.cons_append, List.nil_append, nested, List.map_cons,
      List.map_nil, decide_true, Bool.true_and, Bool.not_false]
    rw [decide_eq_true (by decide), decide_eq_true (by decide), Bool.true_and]
    simp only [propertyXml_nested, violationsXml_nested, nested, List.map_nil, decide_true,
      Bool.true_and]
    decide

end Oclint
