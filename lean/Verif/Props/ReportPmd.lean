import Verif.Props.ReportXml

/-!
# C55, C56, C58: the PMD report and the HTML report
-/

set_option linter.unusedSimpArgs false

namespace Oclint
open Spec

/-! ## PMD -/

theorem pmdAttribute_run (tag : Str) (as : List (Str × Str)) (k v r : Str) (hk : isName k = true)
    (hv : ∀ c ∈ v, c ≠ '"' ∧ c ≠ '<') :
    lexRun (.inTag tag as) (pmdAttribute k v ++ r) = lexRun (.inTag tag (as ++ [(k, v)])) r := by
  unfold pmdAttribute
  simp only [List.append_assoc, List.cons_append, List.nil_append]
  rw [lex_attr _ _ _ _ _ hk hv, lex_valueSpace]

theorem lit_file : "<file name=\"".toList =
    '<' :: ("file".toList ++ ' ' :: ("name".toList ++ ['=', '"'])) := by decide
theorem lit_violationSp : "<violation ".toList = '<' :: ("violation".toList ++ [' ']) := by decide
theorem lit_gt : ">".toList = ['>'] := by decide
theorem lit_violationClose : "</violation>".toList = '<' :: '/' :: ("violation".toList ++ ['>']) := by
  decide
theorem lit_fileClose : "</file>".toList = '<' :: '/' :: ("file".toList ++ ['>']) := by decide
theorem lit_pmdClose : "</pmd>".toList = '<' :: '/' :: ("pmd".toList ++ ['>']) := by decide
theorem lit_pmd : "<pmd version=\"oclint-".toList =
    '<' :: ("pmd".toList ++ ' ' :: ("version".toList ++ '=' :: '"' :: "oclint-".toList)) := by decide
theorem lit_pmdPi : "<?xml version=\"1.0\" encoding=\"UTF-8\"?>".toList =
    '<' :: '?' :: ("xml version=\"1.0\" encoding=\"UTF-8\"".toList ++ ['?', '>']) := by decide

/-- The attributes of a description. -/
def descAttrs : Option PMDRuleDescription → List (Str × Str)
  | none => []
  | some d => pmdRuleAttrs d.name d.category d.priority

/-- The texts of a record mean themselves where they are written. -/
def PmdSafe (v : Violation) (d : Option PMDRuleDescription) : Prop :=
  XmlSafe v.path ∧ v.message.all xmlChar = true ∧
    ∀ x, d = some x → XmlSafe x.name ∧ XmlSafe x.category

/-- The record without what follows it, the message as written. -/
def recordInit (v : Violation) (rule : List (Str × Str)) : List Tok :=
  [.open "file".toList [("name".toList, v.path)], .text ['\n'],
    .open "violation".toList
      ([("begincolumn".toList, decimalInt v.startColumn), ("endcolumn".toList, decimalInt v.endColumn),
        ("beginline".toList, decimalInt v.startLine), ("endline".toList, decimalInt v.endLine)] ++ rule),
    .text (['\n'] ++ xmlEscape v.message ++ ['\n']),
    .close "violation".toList, .text ['\n'], .close "file".toList]

theorem textTok_newline : textTok ['\n'] = [.text ['\n']] := by decide

theorem textTok_nil : textTok [] = [] := by decide

theorem textTok_newlines : textTok ['\n', '\n'] = [.text ['\n', '\n']] := by decide

theorem lex_newline (acc r : Str) : lexRun (.text acc) ('\n' :: r) = lexRun (.text ('\n' :: acc)) r :=
  lexRun_step' (by simp [lexStep]) r

theorem pmdWrite_run (v : Violation) (d : Option PMDRuleDescription) (h : PmdSafe v d)
    (acc r : Str) :
    lexRun (.text acc) (pmdWrite v d ++ endl ++ r) =
      emit (textTok acc ++ recordInit v (descAttrs d)) (lexRun (.text ['\n', '\n']) r) := by
  obtain ⟨hp, -, hd⟩ := h
  have hesc : '<' ∉ xmlEscape v.message := fun hc => (C54_no_specials _ _ hc).1 rfl
  have body : ∀ as, lexRun (.inTag "violation".toList as)
      (">".toList ++ (endl ++ (xmlEscape v.message ++ (endl ++ ("</violation>".toList ++ (endl ++
        ("</file>".toList ++ (endl ++ (endl ++ r))))))))) =
      emit [.open "violation".toList as, .text (['\n'] ++ xmlEscape v.message ++ ['\n']),
        .close "violation".toList, .text ['\n'], .close "file".toList]
        (lexRun (.text ['\n', '\n']) r) := by
    intro as
    rw [lit_gt, lit_violationClose, lit_fileClose]
    unfold endl
    simp only [List.append_assoc, List.cons_append, List.nil_append]
    rw [lex_end, lex_newline, lex_text _ _ hesc, lex_newline, lex_lt, lex_close _ _ (by decide),
      lex_newline, lex_lt, lex_close _ _ (by decide), lex_newline, lex_newline]
    simp only [emit_emit, textTok_newline, List.cons_append, List.nil_append]
    congr 3
    simp [textTok]
  unfold pmdWrite recordInit
  simp only [toStringInt_eq]
  rw [lit_file, lit_propertyMid, lit_violationSp]
  simp only [List.append_assoc, List.cons_append, List.nil_append]
  rw [lex_lt, lex_openSpace _ _ (by decide), lex_attr _ _ _ _ _ (by decide) (xmlSafe_quote hp),
    lex_valueEnd]
  rw [show endl ++ ('<' :: ("violation".toList ++ ' ' :: (pmdAttribute "begincolumn".toList
    (decimalInt v.startColumn) ++ _))) = '\n' :: ('<' :: ("violation".toList ++ ' ' ::
    (pmdAttribute "begincolumn".toList (decimalInt v.startColumn) ++ _))) from rfl]
  rw [lex_newline, lex_lt, lex_openSpace _ _ (by decide),
    pmdAttribute_run _ _ _ _ _ (by decide) (decimalInt_quote _),
    pmdAttribute_run _ _ _ _ _ (by decide) (decimalInt_quote _),
    pmdAttribute_run _ _ _ _ _ (by decide) (decimalInt_quote _),
    pmdAttribute_run _ _ _ _ _ (by decide) (decimalInt_quote _)]
  cases d with
  | none =>
    simp only [List.nil_append]
    rw [body]
    simp only [emit_emit, textTok_newline, List.append_assoc, List.cons_append, List.nil_append,
      descAttrs, List.append_nil]
  | some x =>
    simp only [pmdRule, toStringInt_eq, List.append_assoc]
    rw [pmdAttribute_run _ _ _ _ _ (by decide) (decimalInt_quote _),
      pmdAttribute_run _ _ _ _ _ (by decide) (xmlSafe_quote (hd x rfl).1),
      pmdAttribute_run _ _ _ _ _ (by decide) (xmlSafe_quote (hd x rfl).2), body]
    simp only [emit_emit, textTok_newline, List.append_assoc, List.cons_append, List.nil_append,
      descAttrs, pmdRuleAttrs, List.append_nil]

/-- A record as it is scanned, with what follows it. -/
def recordRaw (v : Violation) (rule : List (Str × Str)) : List Tok :=
  recordInit v rule ++ [.text ['\n', '\n']]

theorem pmdWrites_run (l : List (Violation × Option PMDRuleDescription))
    (h : ∀ p ∈ l, PmdSafe p.1 p.2) (r : Str) :
    ∀ acc, lexRun (.text acc) (l.flatMap (fun p => pmdWrite p.1 p.2 ++ endl) ++ '<' :: r) =
      emit (textTok acc ++ l.flatMap (fun p => recordRaw p.1 (descAttrs p.2))) (lexRun .lt r) := by
  induction l with
  | nil => intro acc; simp only [List.flatMap_nil, List.nil_append, List.append_nil]; exact lex_lt acc r
  | cons p l ih =>
    intro acc
    rw [List.flatMap_cons, List.append_assoc, pmdWrite_run p.1 p.2 (h p (by simp)),
      ih (fun q hq => h q (by simp [hq])), emit_emit, textTok_newlines, List.flatMap_cons]
    unfold recordRaw
    simp only [List.append_assoc]

theorem record_decode (v : Violation) (d : Option PMDRuleDescription) (h : PmdSafe v d) :
    decodeToks (recordRaw v (descAttrs d)) = some (recordPmd v (descAttrs d)) := by
  obtain ⟨hp, -, hd⟩ := h
  have hda : PlainAttrs (descAttrs d) := by
    cases d with
    | none => exact plainAttrs_nil
    | some x =>
      exact plainAttrs_cons _ _ _ (decimalInt_value _) (plainAttrs_cons _ _ _
        (xmlSafe_value (hd x rfl).1) (plainAttrs_cons _ _ _ (xmlSafe_value (hd x rfl).2) plainAttrs_nil))
  have hm : decodeTok (.text (['\n'] ++ xmlEscape v.message ++ ['\n'])) =
      some (.text (['\n'] ++ v.message ++ ['\n'])) := by
    rw [decodeTok, decodeEntities_append (['\n'] ++ xmlEscape v.message) ['\n']
      (['\n'] ++ v.message) ['\n']
      (decodeEntities_append ['\n'] _ ['\n'] _ (by decide) (C54_decode_escape v.message)) (by decide)]
    rfl
  unfold recordRaw recordInit recordPmd
  simp only [List.cons_append, List.nil_append] at hm ⊢
  refine decodeToks_cons _ _ _ _ (decodeTok_open _ _ (plainAttrs_cons _ _ _ (xmlSafe_value hp)
    plainAttrs_nil)) (decodeToks_cons _ _ _ _ (by decide) (decodeToks_cons _ _ _ _
    (decodeTok_open _ _ ?_) (decodeToks_cons _ _ _ _ hm (by decide))))
  exact plainAttrs_cons _ _ _ (decimalInt_value _) (plainAttrs_cons _ _ _ (decimalInt_value _)
    (plainAttrs_cons _ _ _ (decimalInt_value _) (plainAttrs_cons _ _ _ (decimalInt_value _) hda)))

theorem record_nested (v : Violation) (d : Option PMDRuleDescription) (m : Str) (st : List Str)
    (seen : Bool) (r : List Tok) :
    nested (m :: st) seen (recordPmd v (descAttrs d) ++ r) = nested (m :: st) seen r := by
  unfold recordPmd
  cases d with
  | none =>
    simp only [descAttrs, List.cons_append, List.nil_append, nested, decide_true, Bool.true_and,
      List.map_cons, List.map_nil]
    rw [decide_eq_true (by decide), decide_eq_true (by decide), Bool.true_and, Bool.true_and]
  | some x =>
    simp only [descAttrs, pmdRuleAttrs, List.cons_append, List.nil_append, nested, decide_true,
      Bool.true_and, List.map_cons, List.map_nil]
    rw [decide_eq_true (by decide), decide_eq_true (by decide), Bool.true_and, Bool.true_and]

theorem records_nested (l : List (Violation × Option PMDRuleDescription)) (m : Str)
    (st : List Str) (seen : Bool) (r : List Tok) :
    nested (m :: st) seen (l.flatMap (fun p => recordPmd p.1 (descAttrs p.2)) ++ r) =
      nested (m :: st) seen r := by
  induction l with
  | nil => rfl
  | cons p l ih => rw [List.flatMap_cons, List.append_assoc, record_nested, ih]

theorem escape_chars (s : Str) (h : s.all xmlChar = true) : (xmlEscape s).all xmlChar = true := by
  rw [xmlEscape_eq]
  induction s with
  | nil => rfl
  | cons c s ih =>
    simp only [List.all_cons, Bool.and_eq_true] at h
    rw [List.flatMap_cons]
    refine all_app ?_ (ih h.2)
    unfold xmlEscapeChar
    split_ifs
    · decide
    · decide
    · decide
    · decide
    · decide
    · simp [h.1]

theorem pmdAttribute_chars (k v : Str) (hk : k.all xmlChar = true) (hv : XmlSafe v) :
    (pmdAttribute k v).all xmlChar = true := by
  unfold pmdAttribute
  exact all_app (all_app (all_app hk (by decide)) (xmlChar_safe v hv)) (by decide)

theorem pmdWrite_chars (v : Violation) (d : Option PMDRuleDescription) (h : PmdSafe v d) :
    (pmdWrite v d ++ endl).all xmlChar = true := by
  obtain ⟨hp, hm, hd⟩ := h
  have hrule : (match d with | some d => pmdRule d | none => []).all xmlChar = true := by
    cases d with
    | none => rfl
    | some x =>
      simp only [pmdRule, toStringInt_eq]
      exact all_app (all_app (pmdAttribute_chars _ _ (by decide) (xmlSafe_decimalInt _))
        (pmdAttribute_chars _ _ (by decide) (hd x rfl).1))
        (pmdAttribute_chars _ _ (by decide) (hd x rfl).2)
  unfold pmdWrite
  simp only [toStringInt_eq]
  have he := escape_chars v.message hm
  have ha := fun (k : Str) (hk : k.all xmlChar = true) (z : Int) =>
    pmdAttribute_chars k (decimalInt z) hk (xmlSafe_decimalInt z)
  exact (all_app (all_app (all_app (all_app (all_app (all_app (all_app (all_app (all_app (all_app (all_app (all_app (all_app (all_app (all_app (all_app (all_app (all_app (by decide)
    (xmlChar_safe _ hp))
    (by decide))
    (by decide))
    (by decide))
    (ha _ (by decide) _))
    (ha _ (by decide) _))
    (ha _ (by decide) _))
    (ha _ (by decide) _))
    hrule)
    (by decide))
    (by decide))
    he)
    (by decide))
    (by decide))
    (by decide))
    (by decide))
    (by decide))
    (by decide))

/-- The records in the order they are written. -/
def pmdRecords (desc : Violation → Option PMDRuleDescription) (w : ResultsView) :
    List (Violation × Option PMDRuleDescription) :=
  (w.answer .errors).map (fun v => (v, some ⟨"compiler error".toList, "clang".toList, 1⟩))
  ++ ((w.answer .warnings).map (fun v => (v, some ⟨"compiler warning".toList, "clang".toList, 2⟩))
  ++ ((w.answer .violations).map (fun v => (v, desc v))
  ++ (w.answer .checkerBugs).map (fun v => (v, some ⟨"clang static analyzer".toList, "clang".toList, 2⟩))))

/-- The description of the rule of a violation. -/
def descOf (info : RuleId → RuleInfo) (v : Violation) : Option PMDRuleDescription :=
  v.rule.map fun r => ⟨(info r).name, (info r).category, 2 * (info r).priority - 1⟩

theorem writeEach_ok (f : Violation → Outcome Str) (g : Violation → Str) (vs : List Violation)
    (h : ∀ v ∈ vs, f v = .ok (g v)) : writeEach f vs = .ok (vs.flatMap g) := by
  induction vs with
  | nil => rfl
  | cons v vs ih =>
    rw [writeEach, h v (by simp), ih (fun w hw => h w (by simp [hw]))]
    rfl

/-- The priority of a rule fits the arithmetic of the PMD reporter. -/
def PmdPriority (info : RuleId → RuleInfo) (v : Violation) : Prop :=
  ∀ r, v.rule = some r → -1073741823 ≤ (info r).priority ∧ (info r).priority ≤ 1073741823

theorem pmdViolation_eq (info : RuleId → RuleInfo) (v : Violation) (h : PmdPriority info v) :
    pmdViolation info v = .ok (pmdWrite v (descOf info v)) := by
  unfold pmdViolation descOf
  cases hr : v.rule with
  | none => rfl
  | some r =>
    obtain ⟨h1, h2⟩ := h r hr
    have e1 : checkInt32 (2 * (info r).priority) = .ok (2 * (info r).priority) := by
      unfold checkInt32; rw [if_pos (by omega)]
    have e2 : checkInt32 (2 * (info r).priority - 1) = .ok (2 * (info r).priority - 1) := by
      unfold checkInt32; rw [if_pos (by omega)]
    simp only [pmdDescription, e1, e2, bind_ok', Outcome.pure_eq, Option.map_some]

theorem pmdReport_eq (info : RuleId → RuleInfo) (w : ResultsView)
    (hp : ∀ v ∈ w.answer .violations, PmdPriority info v) :
    pmdReport info w = .ok (pmdHeader versionText
      ++ ((pmdRecords (descOf info) w).flatMap (fun p => pmdWrite p.1 p.2 ++ endl) ++ pmdFooter)) := by
  unfold pmdReport
  rw [writeEach_ok _ (fun v => pmdError v ++ endl) _ (fun v _ => rfl),
    writeEach_ok _ (fun v => pmdWarning v ++ endl) _ (fun v _ => rfl),
    writeEach_ok _ (fun v => pmdWrite v (descOf info v) ++ endl) _
      (fun v hv => by rw [pmdViolation_eq info v (hp v hv)]; rfl),
    writeEach_ok _ (fun v => pmdCheckerBug v ++ endl) _ (fun v _ => rfl)]
  simp only [bind_ok', Outcome.pure_eq, pmdRecords, List.flatMap_append, List.flatMap_map,
    List.append_assoc, pmdError, pmdWarning, pmdCheckerBug]

theorem records_chars (l : List (Violation × Option PMDRuleDescription))
    (h : ∀ p ∈ l, PmdSafe p.1 p.2) :
    (l.flatMap (fun p => pmdWrite p.1 p.2 ++ endl)).all xmlChar = true := by
  induction l with
  | nil => rfl
  | cons p l ih =>
    rw [List.flatMap_cons]
    exact all_app (pmdWrite_chars _ _ (h p (by simp))) (ih (fun q hq => h q (by simp [hq])))

/-- The texts of a violation mean themselves in a PMD report. -/
def PmdClean (info : RuleId → RuleInfo) (v : Violation) : Prop :=
  XmlSafe v.path ∧ v.message.all xmlChar = true ∧
    ∀ r, v.rule = some r → XmlSafe (info r).name ∧ XmlSafe (info r).category

theorem pmdRecords_safe (info : RuleId → RuleInfo) (w : ResultsView)
    (hv : ∀ v ∈ w.answer .violations, PmdClean info v)
    (hd : ∀ ch, ch ≠ .violations → ∀ v ∈ w.answer ch, XmlSafe v.path ∧ v.message.all xmlChar = true) :
    ∀ p ∈ pmdRecords (descOf info) w, PmdSafe p.1 p.2 := by
  intro p hp
  have fixed : ∀ ch v n, ch ≠ .violations → v ∈ w.answer ch → xmlSafeB n = true → ∀ q,
      PmdSafe v (some ⟨n, "clang".toList, q⟩) := by
    intro ch v n hch hv hn q
    obtain ⟨h1, h2⟩ := hd ch hch v hv
    refine ⟨h1, h2, ?_⟩
    rintro x ⟨⟩
    exact ⟨xmlSafe_of _ hn, xmlSafe_of "clang".toList (by decide)⟩
  simp only [pmdRecords, List.mem_append, List.mem_map] at hp
  rcases hp with ⟨v, hm, rfl⟩ | ⟨v, hm, rfl⟩ | ⟨v, hm, rfl⟩ | ⟨v, hm, rfl⟩
  · exact fixed _ v _ (by decide) hm (by decide) _
  · exact fixed _ v _ (by decide) hm (by decide) _
  · obtain ⟨h1, h2, h3⟩ := hv v hm
    refine ⟨h1, h2, ?_⟩
    intro x hx
    simp only [descOf, Option.map_eq_some_iff] at hx
    obtain ⟨r, hr, rfl⟩ := hx
    exact h3 r hr
  · exact fixed _ v _ (by decide) hm (by decide) _

theorem reportPmd_records (info : RuleId → RuleInfo) (w : ResultsView) :
    reportPmd info (w.answer .errors) (w.answer .warnings) (w.answer .violations)
      (w.answer .checkerBugs) =
    [.pi "xml version=\"1.0\" encoding=\"UTF-8\"".toList, .text ['\n'],
      .open "pmd".toList [("version".toList, "oclint-24.11".toList)]]
    ++ ((pmdRecords (descOf info) w).flatMap (fun p => recordPmd p.1 (descAttrs p.2))
    ++ [.close "pmd".toList]) := by
  have e : ∀ v, violationPmdRule info v = descAttrs (descOf info v) := by
    intro v
    unfold violationPmdRule descOf
    cases v.rule <;> rfl
  unfold reportPmd pmdRecords
  simp only [List.flatMap_append, List.flatMap_map, List.append_assoc, descAttrs, e]

/-- **C55, C56 (PMD).** If the paths and rule texts contain no `<`, `&`, double quote or control
character and the messages no control character (but whatever else), the report is a well formed XML
document and reads back as one record per error, warning, violation and checker finding, in order,
with all the fields; priorities 1, 2, 3 become 1, 3, 5. -/
theorem C55_pmd_reads_back_partial (info : RuleId → RuleInfo) (w : ResultsView)
    (hp : ∀ v ∈ w.answer .violations, PmdPriority info v)
    (hv : ∀ v ∈ w.answer .violations, PmdClean info v)
    (hd : ∀ ch, ch ≠ .violations → ∀ v ∈ w.answer ch, XmlSafe v.path ∧ v.message.all xmlChar = true) :
    ∃ s, pmdReport info w = .ok s ∧
      readXml s = some (reportPmd info (w.answer .errors) (w.answer .warnings)
        (w.answer .violations) (w.answer .checkerBugs)) := by
  refine ⟨_, pmdReport_eq info w hp, ?_⟩
  have hs := pmdRecords_safe info w hv hd
  rw [reportPmd_records]
  generalize pmdRecords (descOf info) w = l at hs
  refine readXml_of _ _ (scanXml_of _ [] ([.pi "xml version=\"1.0\" encoding=\"UTF-8\"".toList,
      .text ['\n'], .open "pmd".toList [("version".toList, "oclint-24.11".toList)]]
      ++ (l.flatMap (fun p => recordRaw p.1 (descAttrs p.2)) ++ [.close "pmd".toList])) _ ?_ ?_ ?_) ?_
  · exact all_app (by decide) (all_app (records_chars l hs) (by decide))
  · unfold pmdHeader pmdFooter versionText endl
    have run := pmdWrites_run l hs
    unfold endl at run
    have cons : ∀ r : Str, "oclint-".toList ++ ("24.11".toList ++ '"' :: '>' :: r) =
        "oclint-24.11".toList ++ '"' :: '>' :: r := by
      intro r
      have h1 : "oclint-24.11".toList = "oclint-".toList ++ "24.11".toList := by decide
      rw [h1, List.append_assoc]
    rw [lit_pmdPi, lit_pmd, lit_propertyMid, lit_pmdClose]
    simp only [List.append_assoc, List.cons_append, List.nil_append] at run ⊢
    rw [cons, lex_lt, lex_pi _ _ (by decide), lex_newline, lex_lt, lex_openSpace _ _ (by decide),
      lex_attr _ _ _ _ _ (by decide) (by decide), lex_valueEnd, run, lex_close _ _ (by decide)]
    have e : lexRun (.text []) [] = some (.text [], []) := by decide
    rw [e]
    simp only [emit_emit, emit_some, textTok_newline, textTok_nil, List.append_assoc,
      List.cons_append, List.nil_append, List.append_nil]
  · have e : textTok [] = [] := by decide
    rw [e, List.append_nil]
    refine decodeToks_append _ _ _ _ (by decide +kernel) (decodeToks_append _ _ _ _
      (decodeToks_flatMap _ _ _ (fun p h => record_decode p.1 p.2 (hs p h))) (by decide))
  · simp only [List.cons_append, List.nil_append, nested, List.map_cons, List.map_nil, Bool.not_false,
      Bool.true_and]
    rw [decide_eq_true (by decide), records_nested]
    decide

/-! ## HTML -/

theorem htmlSafe_plain {s : Str} (h : HtmlSafe s) : ∀ c ∈ s, c ≠ '&' ∧ c ≠ '<' :=
  fun c hc => ⟨(h c hc).2.1, (h c hc).1⟩

theorem htmlSafe_chars {s : Str} (h : HtmlSafe s) : s.all xmlChar = true := by
  rw [List.all_eq_true]; exact fun c hc => (h c hc).2.2

theorem htmlSafe_of_xml {s : Str} (h : XmlSafe s) : HtmlSafe s := by
  intro c hc
  have := xmlChar_safe s h
  rw [List.all_eq_true] at this
  exact ⟨(h c hc).1, (h c hc).2.1, this c hc⟩

theorem lit_td : "<td>".toList = '<' :: ("td".toList ++ ['>']) := by decide
theorem lit_tdEnd : "</td>".toList = '<' :: '/' :: ("td".toList ++ ['>']) := by decide
theorem lit_tdClass : "<td class='".toList =
    '<' :: ("td".toList ++ ' ' :: ("class".toList ++ ['=', '\''])) := by decide
theorem lit_tdClassEnd : "'>".toList = ['\'', '>'] := by decide
theorem lit_tr : "<tr>".toList = '<' :: ("tr".toList ++ ['>']) := by decide
theorem lit_trEnd : "</tr>".toList = '<' :: '/' :: ("tr".toList ++ ['>']) := by decide

/-- A text that is scanned completely into pieces and means itself. -/
structure Scans (s : Str) (ts : List Tok) : Prop where
  run : ∀ r, lexRun (.text []) (s ++ r) = emit ts (lexRun (.text []) r)
  dec : decodeToks ts = some ts
  chars : s.all xmlChar = true

theorem Scans.nil : Scans [] [] := ⟨fun r => (emit_nil _).symm, rfl, rfl⟩

theorem Scans.append {a b : Str} {ta tb : List Tok} (ha : Scans a ta) (hb : Scans b tb) :
    Scans (a ++ b) (ta ++ tb) :=
  ⟨fun r => by rw [List.append_assoc, ha.run, hb.run, emit_emit],
    decodeToks_append _ _ _ _ ha.dec hb.dec, all_app ha.chars hb.chars⟩

theorem Scans.scan {s : Str} {ts : List Tok} (h : Scans s ts) : scanXml s = some ts := by
  have e : lexRun (.text []) [] = some (.text [], []) := by decide
  refine scanXml_of s [] ts ts h.chars ?_ ?_
  · have := h.run []
    rw [List.append_nil, e, emit_some, List.append_nil] at this
    exact this
  · rw [textTok_nil, List.append_nil]; exact h.dec

theorem Scans.flatMap {α : Type} (f : α → Str) (g : α → List Tok) (l : List α)
    (h : ∀ a ∈ l, Scans (f a) (g a)) : Scans (l.flatMap f) (l.flatMap g) := by
  induction l with
  | nil => exact Scans.nil
  | cons a l ih =>
    exact Scans.append (h a (by simp)) (ih (fun b hb => h b (by simp [hb])))

theorem scans_tr : Scans "<tr>".toList [.open "tr".toList []] :=
  ⟨fun r => by
    rw [lit_tr]
    simp only [List.cons_append, List.append_assoc, List.nil_append]
    exact lex_tag _ _ (by decide), by decide, by decide⟩

theorem scans_trEnd : Scans "</tr>".toList [.close "tr".toList] :=
  ⟨fun r => by
    rw [lit_trEnd]
    simp only [List.cons_append, List.append_assoc, List.nil_append]
    exact lex_endTag _ _ (by decide), by decide, by decide⟩

theorem cellToks_decode (as : List (Str × Str)) (t : Str) (ha : PlainAttrs as) (ht : HtmlSafe t) :
    decodeToks (cellToks as t) = some (cellToks as t) := by
  unfold cellToks
  refine decodeToks_append _ _ _ _ (decodeToks_append _ _ _ _
    (decodeToks_cons _ _ _ _ (decodeTok_open _ _ ha) rfl) ?_) (by decide)
  split_ifs
  · rfl
  · exact decodeToks_cons _ _ _ _ (decodeTok_text _ (htmlSafe_plain ht)) rfl

theorem scans_cell (t : Str) (ht : HtmlSafe t) : Scans (htmlCell t) (cellToks [] t) := by
  refine ⟨fun r => ?_, cellToks_decode _ _ plainAttrs_nil ht, ?_⟩
  · unfold htmlCell cellToks
    rw [lit_td, lit_tdEnd]
    simp only [List.cons_append, List.append_assoc, List.nil_append]
    rw [lex_tag _ _ (by decide), lex_textLt _ _ (fun hc => (ht _ hc).1 rfl), lex_close _ _ (by decide)]
    simp only [emit_emit, List.cons_append, List.nil_append]
  · unfold htmlCell
    exact all_app (all_app (by decide) (htmlSafe_chars ht)) (by decide)

theorem scans_classCell (cls t : Str) (hc : XmlSafe cls) (hq : '\'' ∉ cls) (ht : HtmlSafe t) :
    Scans (htmlClassCell cls t) (cellToks [("class".toList, cls)] t) := by
  refine ⟨fun r => ?_, cellToks_decode _ _
    (plainAttrs_cons _ _ _ (xmlSafe_value hc) plainAttrs_nil) ht, ?_⟩
  · unfold htmlClassCell cellToks
    rw [lit_tdClass, lit_tdClassEnd, lit_tdEnd]
    simp only [List.cons_append, List.append_assoc, List.nil_append]
    rw [lex_lt, lex_openSpace _ _ (by decide), lex_attr' _ _ _ _ _ (by decide)
      (fun c h => ⟨fun e => hq (e ▸ h), (hc c h).1⟩), lex_valueEnd,
      lex_textLt _ _ (fun hc => (ht _ hc).1 rfl), lex_close _ _ (by decide)]
    simp only [emit_emit, textTok_nil, List.cons_append, List.nil_append]
  · unfold htmlClassCell
    exact all_app (all_app (all_app (all_app (by decide) (xmlChar_safe _ hc)) (by decide))
      (htmlSafe_chars ht)) (by decide)

theorem htmlSafe_location (v : Violation) : HtmlSafe (htmlLocation v) := by
  unfold htmlLocation
  rw [toStringInt_eq, toStringInt_eq]
  intro c hc
  simp only [List.mem_append, List.mem_singleton] at hc
  rcases hc with (hc | hc) | hc
  · exact htmlSafe_of_xml (xmlSafe_decimalInt _) c hc
  · subst hc; decide
  · exact htmlSafe_of_xml (xmlSafe_decimalInt _) c hc

theorem htmlSafe_fixed (s : Str) (h : xmlSafeB s = true) : HtmlSafe s :=
  htmlSafe_of_xml (xmlSafe_of s h)

/-- A row of six cells. -/
theorem scans_row (v : Violation) (rule category cls priority : Str)
    (hp : HtmlSafe v.path) (hm : HtmlSafe v.message) (hr : HtmlSafe rule) (hca : HtmlSafe category)
    (hcl : XmlSafe cls) (hq : '\'' ∉ cls) (hpr : HtmlSafe priority) :
    Scans ("<tr>".toList ++ htmlCell v.path ++ htmlCell (htmlLocation v) ++ htmlCell rule
      ++ htmlCell category ++ htmlClassCell cls priority ++ htmlCell v.message ++ "</tr>".toList)
      (rowToks v rule category cls priority) := by
  have hl := scans_cell _ (htmlSafe_location v)
  have e : htmlLocation v = decimalInt v.startLine ++ [':'] ++ decimalInt v.startColumn := by
    unfold htmlLocation; rw [toStringInt_eq, toStringInt_eq]
  rw [e] at hl
  rw [e]
  unfold rowToks
  exact ((((((scans_tr.append (scans_cell _ hp)).append hl).append (scans_cell _ hr)).append
    (scans_cell _ hca)).append (scans_classCell _ _ hcl hq hpr)).append (scans_cell _ hm)).append
    scans_trEnd

/-- The texts of a violation mean themselves between tags. -/
def HtmlClean (info : RuleId → RuleInfo) (v : Violation) : Prop :=
  HtmlSafe v.path ∧ HtmlSafe v.message ∧
    ∀ r, v.rule = some r → HtmlSafe (info r).name ∧ HtmlSafe (info r).category

theorem htmlDiagnostics_eq (level : Str) (vs : List Violation) :
    htmlDiagnostics level vs = vs.flatMap fun v => htmlDiagnostic v level := by
  induction vs with
  | nil => rfl
  | cons v vs ih => rw [htmlDiagnostics, ih, List.flatMap_cons]

theorem htmlCheckerBugs_eq (vs : List Violation) :
    htmlCheckerBugs vs = vs.flatMap htmlCheckerBug := by
  induction vs with
  | nil => rfl
  | cons v vs ih => rw [htmlCheckerBugs, ih, List.flatMap_cons]

theorem ifAny_flatMap (f : Violation → Str) (vs : List Violation) :
    (if hasAny vs then vs.flatMap f else []) = vs.flatMap f := by
  cases vs with
  | nil => rfl
  | cons v vs => simp [hasAny, numberOf]

/-- The text of the row of a violation with a rule. -/
def htmlRowText (info : RuleId → RuleInfo) (v : Violation) : Str :=
  match v.rule with
  | none => []
  | some r =>
    "<tr>".toList ++ htmlCell v.path ++ htmlCell (htmlLocation v)
      ++ htmlCell (info r).name ++ htmlCell (info r).category
      ++ htmlClassCell ("priority".toList ++ decimalInt (info r).priority)
        (decimalInt (info r).priority)
      ++ htmlCell v.message ++ "</tr>".toList

theorem htmlViolation_eq (info : RuleId → RuleInfo) (v : Violation) (h : v.rule ≠ none) :
    htmlViolation info v = .ok (htmlRowText info v) := by
  unfold htmlViolation htmlRowText derefRule
  cases hr : v.rule with
  | none => exact absurd hr h
  | some r => simp only [bind_ok', Outcome.pure_eq, toStringInt_eq]

theorem htmlRows_eq (info : RuleId → RuleInfo) (w : ResultsView)
    (hrule : ∀ v ∈ w.answer .violations, v.rule ≠ none) :
    htmlRows info w = .ok ((w.answer .violations).flatMap (htmlRowText info)
      ++ (w.answer .errors).flatMap (fun v => htmlDiagnostic v "error".toList)
      ++ (w.answer .warnings).flatMap (fun v => htmlDiagnostic v "warning".toList)
      ++ (w.answer .checkerBugs).flatMap htmlCheckerBug) := by
  unfold htmlRows
  rw [writeEach_ok _ (htmlRowText info) _ (fun v hv => htmlViolation_eq info v (hrule v hv))]
  simp only [bind_ok', Outcome.pure_eq, htmlDiagnostics_eq, htmlCheckerBugs_eq, ifAny_flatMap]

theorem not_mem_priorityClass (z : Int) : '\'' ∉ "priority".toList ++ decimalInt z := by
  rw [List.mem_append]
  rintro (h | h)
  · revert h; decide
  · exact not_mem_decimalInt z _ (by decide) (by decide) h

theorem safe_priorityClass (z : Int) : XmlSafe ("priority".toList ++ decimalInt z) := by
  intro c hc
  rcases List.mem_append.1 hc with h | h
  · exact xmlSafe_of "priority".toList (by decide) c h
  · exact xmlSafe_decimalInt z c h

theorem scans_diag (v : Violation) (level : Str) (rule cls : Str)
    (e1 : "compiler ".toList ++ level = rule) (e2 : "cmplr-".toList ++ level = cls)
    (hp : HtmlSafe v.path) (hm : HtmlSafe v.message) (hl : xmlSafeB level = true)
    (h1 : xmlSafeB rule = true) (h2 : xmlSafeB cls = true) (hq : '\'' ∉ cls) :
    Scans (htmlDiagnostic v level) (rowToks v rule [] cls level) := by
  unfold htmlDiagnostic
  rw [e1, e2]
  exact scans_row v rule [] cls level hp hm (htmlSafe_fixed _ h1) (fun c hc => by simp at hc)
    (xmlSafe_of _ h2) hq (htmlSafe_fixed _ hl)

theorem scans_bug (v : Violation) (hp : HtmlSafe v.path) (hm : HtmlSafe v.message) :
    Scans (htmlCheckerBug v)
      (rowToks v "clang static analyzer".toList [] "checker-bug".toList "checker bug".toList) :=
  scans_row v _ [] _ _ hp hm (htmlSafe_fixed _ (by decide)) (fun c hc => by simp at hc)
    (xmlSafe_of _ (by decide)) (by decide) (htmlSafe_fixed _ (by decide))

theorem scans_rows (info : RuleId → RuleInfo) (w : ResultsView)
    (hc : ∀ v ∈ w.answer .violations, HtmlClean info v)
    (hd : ∀ ch, ch ≠ .violations → ∀ v ∈ w.answer ch, HtmlSafe v.path ∧ HtmlSafe v.message) :
    Scans ((w.answer .violations).flatMap (htmlRowText info)
      ++ (w.answer .errors).flatMap (fun v => htmlDiagnostic v "error".toList)
      ++ (w.answer .warnings).flatMap (fun v => htmlDiagnostic v "warning".toList)
      ++ (w.answer .checkerBugs).flatMap htmlCheckerBug)
      (rowsHtml info (w.answer .errors) (w.answer .warnings) (w.answer .violations)
        (w.answer .checkerBugs)) := by
  unfold rowsHtml
  refine ((Scans.append (Scans.flatMap _ _ _ ?_) (Scans.flatMap _ _ _ ?_)).append
    (Scans.flatMap _ _ _ ?_)).append (Scans.flatMap _ _ _ ?_)
  · intro v hv
    obtain ⟨h1, h2, h3⟩ := hc v hv
    unfold htmlRowText violationRow
    cases hr : v.rule with
    | none => exact Scans.nil
    | some r =>
      exact scans_row v _ _ _ _ h1 h2 (h3 r hr).1 (h3 r hr).2 (safe_priorityClass _)
        (not_mem_priorityClass _) (htmlSafe_of_xml (xmlSafe_decimalInt _))
  · intro v hv
    obtain ⟨h1, h2⟩ := hd _ (by decide) v hv
    exact scans_diag v _ _ _ (by decide) (by decide) h1 h2 (by decide) (by decide) (by decide) (by decide)
  · intro v hv
    obtain ⟨h1, h2⟩ := hd _ (by decide) v hv
    exact scans_diag v _ _ _ (by decide) (by decide) h1 h2 (by decide) (by decide) (by decide) (by decide)
  · intro v hv
    obtain ⟨h1, h2⟩ := hd _ (by decide) v hv
    exact scans_bug v h1 h2

/-- A fixed text that is scanned completely. -/
def scansB (s : Str) (ts : List Tok) : Bool :=
  decide (lexRun (.text []) s = some (.text [], ts)) && decide (decodeToks ts = some ts)
    && s.all xmlChar

theorem lexRun_append (a b : Str) : ∀ st st' ts, lexRun st a = some (st', ts) →
    lexRun st (a ++ b) = emit ts (lexRun st' b) := by
  induction a with
  | nil =>
    intro st st' ts h
    simp only [lexRun, Option.some.injEq, Prod.mk.injEq] at h
    obtain ⟨rfl, rfl⟩ := h
    rw [emit_nil]; rfl
  | cons c a ih =>
    intro st st' ts h
    rw [lexRun_cons] at h
    rw [List.cons_append, lexRun_cons]
    cases hs : lexStep c st with
    | none => simp [hs] at h
    | some p =>
      simp only [hs, Option.bind_some, emit, Option.map_eq_some_iff] at h ⊢
      obtain ⟨q, hq, hq'⟩ := h
      simp only [Prod.mk.injEq] at hq'
      obtain ⟨h1, h2⟩ := hq'
      have := ih p.1 q.1 q.2 (by rw [hq])
      rw [this, ← h2, ← h1]
      simp only [emit, Option.map_map]
      congr 1
      funext x
      simp

theorem scans_of (s : Str) (ts : List Tok) (h : scansB s ts = true) : Scans s ts := by
  simp only [scansB, Bool.and_eq_true, decide_eq_true_eq] at h
  exact ⟨fun r => lexRun_append s r _ _ _ h.1.1, h.1.2, h.2⟩

/-- The text of the summary table. -/
def htmlSummaryText (w : ResultsView) (p1 p2 p3 : Nat) : Str :=
  "<table>".toList ++ htmlSummaryHead ++ "<tbody>".toList ++ "<tr>".toList
    ++ htmlCell (decimalInt (numberOfFiles w.collector))
    ++ htmlCell (decimalInt (numberOfFilesWithViolations w.collector))
    ++ htmlClassCell "priority1".toList (decimalInt p1)
    ++ htmlClassCell "priority2".toList (decimalInt p2)
    ++ htmlClassCell "priority3".toList (decimalInt p3)
    ++ htmlClassCell "cmplr-error".toList (decimalInt (w.answer .errors).length)
    ++ htmlClassCell "cmplr-warning".toList (decimalInt (w.answer .warnings).length)
    ++ htmlClassCell "checker-bug".toList (decimalInt (w.answer .checkerBugs).length)
    ++ "</tr>".toList ++ "</tbody>".toList ++ "</table>".toList

theorem htmlSummary_eq (info : RuleId → RuleInfo) (w : ResultsView)
    (hrule : ∀ v ∈ w.answer .violations, v.rule ≠ none) :
    htmlSummary info w = .ok (htmlSummaryText w
      (countWithPriority (fun r => (info r).priority) 1 (w.answer .violations))
      (countWithPriority (fun r => (info r).priority) 2 (w.answer .violations))
      (countWithPriority (fun r => (info r).priority) 3 (w.answer .violations))) := by
  unfold htmlSummary htmlSummaryText
  rw [priorityTotal_ok info w 1 hrule, priorityTotal_ok info w 2 hrule,
    priorityTotal_ok info w 3 hrule]
  simp only [bind_ok', Outcome.pure_eq, toStringInt_eq]

/-- **C55, C56, C58 (HTML).** If no text contains `<`, `&` or a control character, the report is the
fixed page frame around a summary table with the eight totals and a details table with exactly one
row per violation, error, warning and checker finding, in that order, each with all its fields. -/
theorem C55_html_reads_back_partial (info : RuleId → RuleInfo) (ctime : Str) (w : ResultsView)
    (hrule : ∀ v ∈ w.answer .violations, v.rule ≠ none)
    (hc : ∀ v ∈ w.answer .violations, HtmlClean info v)
    (hd : ∀ ch, ch ≠ .violations → ∀ v ∈ w.answer ch, HtmlSafe v.path ∧ HtmlSafe v.message) :
    ∃ summary details rows,
      htmlReport info ctime w = .ok ("<!DOCTYPE html><html>".toList ++ htmlHead
        ++ "<body><h1>OCLint Report</h1><h2>Summary</h2>".toList ++ summary
        ++ "<h2>Details</h2>".toList ++ details ++ rows
        ++ "</tbody></table><hr /><p>".toList ++ ctime
        ++ "| Generated with <a href='https://oclint.org'>OCLint v24.11</a>.</p></body></html>\n".toList) ∧
      scanXml summary = some (summaryHtml (numberOfFiles w.collector)
        (numberOfFilesWithViolations w.collector)
        (countWithPriority (fun r => (info r).priority) 1 (w.answer .violations))
        (countWithPriority (fun r => (info r).priority) 2 (w.answer .violations))
        (countWithPriority (fun r => (info r).priority) 3 (w.answer .violations))
        (w.answer .errors).length (w.answer .warnings).length (w.answer .checkerBugs).length) ∧
      scanXml details = some detailsHtml ∧
      scanXml rows = some (rowsHtml info (w.answer .errors) (w.answer .warnings)
        (w.answer .violations) (w.answer .checkerBugs)) := by
  unfold htmlReport
  rw [htmlSummary_eq info w hrule, htmlRows_eq info w hrule]
  generalize htmlHead = head
  simp only [bind_ok', Outcome.pure_eq]
  refine ⟨htmlSummaryText w
      (countWithPriority (fun r => (info r).priority) 1 (w.answer .violations))
      (countWithPriority (fun r => (info r).priority) 2 (w.answer .violations))
      (countWithPriority (fun r => (info r).priority) 3 (w.answer .violations)),
    htmlDetailsHead, _, ?_, ?_, (scans_of _ _ (by decide +kernel)).scan, (scans_rows info w hc hd).scan⟩
  rotate_left
  · unfold summaryHtml htmlSummaryText
    apply Scans.scan
    have cell := fun z : Int => scans_cell (decimalInt z) (htmlSafe_of_xml (xmlSafe_decimalInt z))
    have ccell := fun (cls : Str) (h1 : xmlSafeB cls = true) (h2 : '\'' ∉ cls) (z : Int) =>
      scans_classCell cls (decimalInt z) (xmlSafe_of _ h1) h2 (htmlSafe_of_xml (xmlSafe_decimalInt z))
    have tail : Scans ("</tr>".toList ++ "</tbody>".toList ++ "</table>".toList)
        [.close "tr".toList, .close "tbody".toList, .close "table".toList] :=
      scans_of _ _ (by decide +kernel)
    have start : Scans ("<table>".toList ++ htmlSummaryHead ++ "<tbody>".toList ++ "<tr>".toList)
        ([.open "table".toList [], .open "thead".toList [], .open "tr".toList []]
        ++ headToks [] "Total Files".toList ++ headToks [] "Files with Violations".toList
        ++ headToks [] "Priority 1".toList ++ headToks [] "Priority 2".toList
        ++ headToks [] "Priority 3".toList ++ headToks [] "Compiler Errors".toList
        ++ headToks [] "Compiler Warnings".toList ++ headToks [] "Clang Static Analyzer".toList
        ++ [.close "tr".toList, .close "thead".toList, .open "tbody".toList [], .open "tr".toList []]) :=
      scans_of _ _ (by decide +kernel)
    have all := fun (a b c d e f g h : Int) => ((((((((start.append (cell a)).append (cell b)).append
      (ccell "priority1".toList (by decide) (by decide) c)).append
      (ccell "priority2".toList (by decide) (by decide) d)).append
      (ccell "priority3".toList (by decide) (by decide) e)).append
      (ccell "cmplr-error".toList (by decide) (by decide) f)).append
      (ccell "cmplr-warning".toList (by decide) (by decide) g)).append
      (ccell "checker-bug".toList (by decide) (by decide) h)).append tail
    simp only [List.append_assoc] at all ⊢
    exact all _ _ _ _ _ _ _ _
  · have l1 : "<!DOCTYPE html><html>".toList = "<!DOCTYPE html>".toList ++ "<html>".toList := by decide
    have l2 : "<body><h1>OCLint Report</h1><h2>Summary</h2>".toList =
        "<body>".toList ++ "<h1>OCLint Report</h1>".toList ++ "<h2>Summary</h2>".toList := by
      decide +kernel
    have l3 : "</tbody></table><hr /><p>".toList =
        "</tbody></table>".toList ++ "<hr />".toList ++ "<p>".toList := by decide +kernel
    have l4 : "| Generated with <a href='https://oclint.org'>OCLint v24.11</a>.</p></body></html>\n".toList
        = "| Generated with <a href='".toList ++ homepageText ++ "'>".toList
          ++ "OCLint v".toList ++ versionText ++ "</a>.</p>".toList ++ "</body>".toList
          ++ "</html>".toList ++ endl := by decide +kernel
    rw [l1, l2, l3, l4]
    unfold htmlFooter
    simp only [List.append_assoc]

end Oclint
