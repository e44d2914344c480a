import Verif.Lemmas.XmlExact

/-!
# C55: which XML, PMD and HTML reports read back as what they are about

`Props/ReportXml.lean` and `Props/ReportPmd.lean` prove that reports about harmless texts read back;
here the converse: a report that reads back is about harmless texts.
-/

namespace Oclint
open Spec

theorem readXml_reads (s : Str) (E : List Tok) (h : readXml s = some E) :
    s.all xmlChar = true ∧ Reads (.text []) s E := by
  unfold readXml at h
  cases hs : scanXml s with
  | none => rw [hs] at h; cases h
  | some ts =>
    rw [hs] at h
    simp only at h
    split_ifs at h
    cases h
    unfold scanXml at hs
    split_ifs at hs with hc
    refine ⟨hc, ?_⟩
    split at hs
    · rename_i acc ts' hl
      exact ⟨acc, ts', hl, hs⟩
    · cases hs

theorem scanXml_reads (s : Str) (E : List Tok) (h : scanXml s = some E) :
    s.all xmlChar = true ∧ Reads (.text []) s E := by
  unfold scanXml at h
  split_ifs at h with hc
  refine ⟨hc, ?_⟩
  split at h
  · rename_i acc ts' hl
    exact ⟨acc, ts', hl, h⟩
  · cases h

theorem all_left {p : Char → Bool} {a b : Str} (h : (a ++ b).all p = true) : a.all p = true := by
  rw [List.all_append, Bool.and_eq_true] at h
  exact h.1

theorem all_right {p : Char → Bool} {a b : Str} (h : (a ++ b).all p = true) : b.all p = true := by
  rw [List.all_append, Bool.and_eq_true] at h
  exact h.2

/-- `key="value"` read as what was written. -/
theorem Reads.attr {n : Str} {as more : List (Str × Str)} {k P r : Str} {E : List Tok}
    (h : Reads (.inTag n as) (k ++ '=' :: '"' :: (P ++ '"' :: r)) (.open n (as ++ (k, P) :: more) :: E))
    (hk : isName k = true) (ha : PlainAttrs as) (hc : P.all xmlChar = true) :
    XmlSafe P ∧ Reads (.afterValue n (as ++ [(k, P)])) r (.open n ((as ++ [(k, P)]) ++ more) :: E) := by
  have h1 := (h.move (lex_attrName n as k _ hk)).move
    (lexRun_step' (st' := .attrValue n as k '"' []) (by simp [lexStep]) _)
  have hs := h1.value ha hc
  refine ⟨hs, ?_⟩
  have h2 := h.move (lex_attr n as k P r hk (xmlSafe_quote hs))
  rwa [List.append_assoc, List.singleton_append]

/-- The attributes as the XML reporter writes them. -/
def attrText (A : List (Str × Str)) : Str := A.flatMap fun p => xmlAttribute p.1 p.2

theorem attrs_exact (n r : Str) (E : List Tok) (A : List (Str × Str)) : ∀ as,
    Reads (.afterValue n as) (attrText A ++ r) (.open n (as ++ A) :: E) → PlainAttrs as →
    (∀ p ∈ A, isName p.1 = true) → (attrText A).all xmlChar = true → ∀ p ∈ A, XmlSafe p.2 := by
  induction A with
  | nil => intro as _ _ _ _ p hp; simp at hp
  | cons a A ih =>
    obtain ⟨k, P⟩ := a
    intro as h ha hn hc
    have ht : attrText ((k, P) :: A) = xmlAttribute k P ++ attrText A := rfl
    rw [ht] at h hc
    have hP : P.all xmlChar = true := by
      have := all_left hc
      unfold xmlAttribute at this
      exact all_right (all_left this)
    have h' := h
    unfold xmlAttribute at h
    simp only [List.append_assoc, List.cons_append, List.nil_append] at h
    obtain ⟨hs, -⟩ := (h.move (lex_valueSpace n as _)).attr (hn (k, P) (by simp)) ha hP
    rw [List.append_assoc] at h'
    have h2 := h'.move (xmlAttribute_run n as k P _ (hn (k, P) (by simp)) hs)
    have := ih (as ++ [(k, P)]) (by rwa [List.append_assoc, List.singleton_append])
      (plainAttrs_append _ _ ha (plainAttrs_cons _ _ _ (xmlSafe_value hs) plainAttrs_nil))
      (fun p hp => hn p (by simp [hp])) (all_right hc)
    intro p hp
    rcases List.mem_cons.1 hp with rfl | hp
    · exact hs
    · exact this p hp

/-- The attributes of the element of a violation. -/
def elementAttrs (info : RuleId → RuleInfo) (v : Violation) : List (Str × Str) :=
  [("path".toList, v.path), ("startline".toList, decimalInt v.startLine),
      ("startcolumn".toList, decimalInt v.startColumn)]
    ++ (if v.endLine ≠ 0 ∧ v.endColumn ≠ 0 then
        [("endline".toList, decimalInt v.endLine), ("endcolumn".toList, decimalInt v.endColumn)]
        else [])
    ++ (match v.rule with
        | none => []
        | some r => [("rule".toList, (info r).name), ("category".toList, (info r).category),
            ("priority".toList, decimalInt (info r).priority)])
    ++ [("message".toList, v.message)]

theorem violationXml_attrs (info : RuleId → RuleInfo) (v : Violation) :
    violationXml info v = [.open "violation".toList (elementAttrs info v), .close "violation".toList] :=
  rfl

theorem xmlViolation_attrs (info : RuleId → RuleInfo) (v : Violation) :
    xmlViolation info v =
      '<' :: ("violation".toList ++ (attrText (elementAttrs info v) ++ "></violation>".toList)) := by
  unfold xmlViolation elementAttrs xmlEnd xmlRule attrText
  rw [lit_violation]
  simp only [toStringInt_eq]
  split_ifs <;> cases v.rule <;>
    simp only [List.flatMap_cons, List.flatMap_nil, List.append_assoc,
      List.cons_append, List.nil_append, List.append_nil]

theorem elementAttrs_names (info : RuleId → RuleInfo) (v : Violation) :
    ∀ p ∈ elementAttrs info v, isName p.1 = true := by
  unfold elementAttrs
  have h : ∀ k : Str, ∀ x : Str, ∀ p : Str × Str, isName k = true → p = (k, x) → isName p.1 = true :=
    fun k x p hk e => by rw [e]; exact hk
  intro p hp
  simp only [List.mem_append, List.mem_cons, List.not_mem_nil, or_false] at hp
  rcases hp with (((hp | hp | hp) | hp) | hp) | hp
  · exact h _ _ p (by decide) hp
  · exact h _ _ p (by decide) hp
  · exact h _ _ p (by decide) hp
  · split_ifs at hp
    · simp only [List.mem_cons, List.not_mem_nil, or_false] at hp
      rcases hp with hp | hp
      · exact h _ _ p (by decide) hp
      · exact h _ _ p (by decide) hp
    · simp at hp
  · cases hr : v.rule with
    | none => rw [hr] at hp; simp at hp
    | some i =>
      rw [hr] at hp
      simp only [List.mem_cons, List.not_mem_nil, or_false] at hp
      rcases hp with hp | hp | hp
      · exact h _ _ p (by decide) hp
      · exact h _ _ p (by decide) hp
      · exact h _ _ p (by decide) hp
  · exact h _ _ p (by decide) hp

theorem xmlViolation_exact (info : RuleId → RuleInfo) (v : Violation) (r : Str) (E : List Tok)
    (h : Reads (.text []) (xmlViolation info v ++ r) (violationXml info v ++ E))
    (hc : (xmlViolation info v).all xmlChar = true) : XmlClean info v := by
  rw [xmlViolation_attrs, violationXml_attrs] at h
  rw [xmlViolation_attrs] at hc
  have hne : ∃ k P A', attrText (elementAttrs info v) = xmlAttribute k P ++ A' :=
    ⟨_, _, _, rfl⟩
  have hc' : (attrText (elementAttrs info v)).all xmlChar = true := by
    rw [List.all_cons, Bool.and_eq_true] at hc
    exact all_left (all_right hc.2)
  have key : ∀ r', lexRun (.text []) ('<' :: ("violation".toList ++
      (attrText (elementAttrs info v) ++ r'))) =
      lexRun (.afterValue "violation".toList []) (attrText (elementAttrs info v) ++ r') := by
    intro r'
    obtain ⟨k, P, A', e⟩ := hne
    rw [e, lex_lt, textTok_nil, emit_nil]
    unfold xmlAttribute
    simp only [List.append_assoc, List.cons_append, List.nil_append]
    rw [lex_openSpace _ _ (by decide), lex_valueSpace]
  simp only [List.append_assoc, List.cons_append, List.nil_append] at h
  have h1 := h.move (key _)
  have hs := attrs_exact _ _ _ _ [] h1 plainAttrs_nil (elementAttrs_names info v) hc'
  unfold elementAttrs at hs
  refine ⟨hs _ (List.mem_append_left _ (List.mem_append_left _ (List.mem_append_left _
    List.mem_cons_self))), hs _ (List.mem_append_right _ List.mem_cons_self), fun i hi => ?_⟩
  rw [hi] at hs
  exact ⟨hs _ (List.mem_append_left _ (List.mem_append_right _ List.mem_cons_self)),
    hs _ (List.mem_append_left _ (List.mem_append_right _ (List.mem_cons_of_mem _
      List.mem_cons_self)))⟩

theorem xmlViolations_exact (info : RuleId → RuleInfo) (vs : List Violation) (r : Str) (E : List Tok)
    (h : Reads (.text []) (xmlViolations info vs ++ r) (vs.flatMap (violationXml info) ++ E))
    (hc : (xmlViolations info vs).all xmlChar = true) : ∀ v ∈ vs, XmlClean info v := by
  induction vs with
  | nil => intro v hv; simp at hv
  | cons v vs ih =>
    rw [xmlViolations, List.append_assoc, List.flatMap_cons, List.append_assoc] at h
    rw [xmlViolations] at hc
    have hv := xmlViolation_exact info v _ _ h (all_left hc)
    have := ih (h.step (xmlViolation_run info v hv _) (violationXml_decode info v hv)) (all_right hc)
    intro u hu
    rcases List.mem_cons.1 hu with rfl | hu
    · exact hv
    · exact this u hu

/-- The report up to the violations. -/
theorem xmlText_front (dt : Str) (files fwv n1 n2 n3 : Int) (hd : XmlSafe dt) (hne : dt ≠ []) (r : Str) :
    lexRun (.text []) (xmlHeader versionText ++ ("<datetime>".toList ++ dt ++ "</datetime>".toList)
      ++ ("<summary>".toList
        ++ xmlProperty "number of files".toList files
        ++ xmlProperty "files with violations".toList fwv
        ++ xmlProperty "number of priority 1 violations".toList n1
        ++ xmlProperty "number of priority 2 violations".toList n2
        ++ xmlProperty "number of priority 3 violations".toList n3
        ++ "</summary>".toList)
      ++ "<violations>".toList ++ r) =
    emit ([.pi "xml version=\"1.0\" encoding=\"UTF-8\" ".toList,
        .open "oclint".toList [("version".toList, "24.11".toList), ("url".toList, "https://oclint.org".toList)],
        .open "datetime".toList [], .text dt, .close "datetime".toList,
        .open "summary".toList []]
      ++ (propertyXml "number of files".toList files
      ++ (propertyXml "files with violations".toList fwv
      ++ (propertyXml "number of priority 1 violations".toList n1
      ++ (propertyXml "number of priority 2 violations".toList n2
      ++ (propertyXml "number of priority 3 violations".toList n3
      ++ ([.close "summary".toList, .open "violations".toList []]))))))) (lexRun (.text []) r) := by
  unfold xmlHeader versionText homepageText
  rw [lit_xmlPi, lit_oclint, lit_url, lit_propertyMid, lit_datetime, lit_datetimeEnd, lit_summary,
    lit_summaryEnd, lit_violations]
  simp only [List.append_assoc, List.cons_append, List.nil_append]
  rw [lex_lt, lex_pi _ _ (by decide), lex_lt, lex_openSpace _ _ (by decide),
    lex_attr _ _ _ _ _ (by decide) (by decide), lex_valueSpace,
    lex_attr _ _ _ _ _ (by decide) (by decide), lex_valueEnd, lex_tag _ _ (by decide),
    lex_textLt _ _ (fun hc => (hd _ hc).1 rfl), if_neg hne, lex_close _ _ (by decide),
    lex_tag _ _ (by decide), xmlProperty_run _ (xmlSafe_of _ (by decide)),
    xmlProperty_run _ (xmlSafe_of _ (by decide)), xmlProperty_run _ (xmlSafe_of _ (by decide)),
    xmlProperty_run _ (xmlSafe_of _ (by decide)), xmlProperty_run _ (xmlSafe_of _ (by decide)),
    lex_endTag _ _ (by decide), lex_tag _ _ (by decide)]
  simp only [emit_emit, textTok_nil, List.cons_append, List.nil_append]

theorem front_decode (dt : Str) (files fwv n1 n2 n3 : Int) (hd : XmlSafe dt) :
    decodeToks ([.pi "xml version=\"1.0\" encoding=\"UTF-8\" ".toList,
        .open "oclint".toList [("version".toList, "24.11".toList), ("url".toList, "https://oclint.org".toList)],
        .open "datetime".toList [], .text dt, .close "datetime".toList,
        .open "summary".toList []]
      ++ (propertyXml "number of files".toList files
      ++ (propertyXml "files with violations".toList fwv
      ++ (propertyXml "number of priority 1 violations".toList n1
      ++ (propertyXml "number of priority 2 violations".toList n2
      ++ (propertyXml "number of priority 3 violations".toList n3
      ++ ([.close "summary".toList, .open "violations".toList []])))))))
    = some ([.pi "xml version=\"1.0\" encoding=\"UTF-8\" ".toList,
        .open "oclint".toList [("version".toList, "24.11".toList), ("url".toList, "https://oclint.org".toList)],
        .open "datetime".toList [], .text dt, .close "datetime".toList,
        .open "summary".toList []]
      ++ (propertyXml "number of files".toList files
      ++ (propertyXml "files with violations".toList fwv
      ++ (propertyXml "number of priority 1 violations".toList n1
      ++ (propertyXml "number of priority 2 violations".toList n2
      ++ (propertyXml "number of priority 3 violations".toList n3
      ++ ([.close "summary".toList, .open "violations".toList []]))))))) := by
  refine decodeToks_append _ _ _ _ ?_ (decodeToks_append _ _ _ _
      (propertyXml_decode _ (xmlSafe_of _ (by decide)) _) (decodeToks_append _ _ _ _
      (propertyXml_decode _ (xmlSafe_of _ (by decide)) _) (decodeToks_append _ _ _ _
      (propertyXml_decode _ (xmlSafe_of _ (by decide)) _) (decodeToks_append _ _ _ _
      (propertyXml_decode _ (xmlSafe_of _ (by decide)) _) (decodeToks_append _ _ _ _
      (propertyXml_decode _ (xmlSafe_of _ (by decide)) _) rfl)))))
  refine decodeToks_cons _ _ _ _ rfl (decodeToks_cons _ _ _ _ (by decide +kernel)
    (decodeToks_cons _ _ _ _ rfl (decodeToks_cons _ _ _ _ (decodeTok_text _ (xmlSafe_plain hd))
      rfl)))

/-- **C55 (XML).** The report reads back as what it is about exactly if no text of a violation or an
analyzer finding has a `<`, `&`, double quote or control character. -/
theorem C55_xml_exact (info : RuleId → RuleInfo) (tm : Tm) (w : ResultsView)
    (ht : IsInt32 (tm.year + 1900)) (hrule : ∀ v ∈ w.answer .violations, v.rule ≠ none) :
    (∃ s dt, xmlReport info (some tm) w = .ok s ∧
      xmlDatetime (some tm) = .ok ("<datetime>".toList ++ dt ++ "</datetime>".toList) ∧
      readXml s = some (reportXml info dt (numberOfFiles w.collector)
        (numberOfFilesWithViolations w.collector) (w.answer .violations)
        (w.answer .checkerBugs))) ↔
    (∀ v ∈ w.answer .violations, XmlClean info v) ∧ ∀ v ∈ w.answer .checkerBugs, XmlClean info v := by
  refine ⟨?_, fun h => C55_xml_reads_back_partial info tm w ht hrule h.1 h.2⟩
  rintro ⟨s, dt, hs, hdt, hread⟩
  rw [xmlReport_eq info tm w ht hrule] at hs
  rw [xmlDatetime_eq tm ht] at hdt
  have hdt' : datetimeText tm = dt := by
    simp only [Outcome.ok.injEq, List.append_assoc] at hdt
    exact List.append_cancel_right (List.append_cancel_left hdt)
  subst hdt'
  have hd := datetimeText_safe tm
  have hne := datetimeText_ne_nil tm
  generalize datetimeText tm = dt at hs hread hd hne
  unfold reportXml at hread
  generalize countWithPriority (fun r => (info r).priority) 1 (w.answer .violations) = n1 at *
  generalize countWithPriority (fun r => (info r).priority) 2 (w.answer .violations) = n2 at *
  generalize countWithPriority (fun r => (info r).priority) 3 (w.answer .violations) = n3 at *
  simp only [Outcome.ok.injEq] at hs
  subst hs
  obtain ⟨hc, hr⟩ := readXml_reads _ _ hread
  unfold xmlText at hr hc
  generalize w.answer .violations = vs at *
  generalize w.answer .checkerBugs = bs at *
  have hcv : (xmlViolations info vs).all xmlChar = true :=
    all_right (all_left (all_left (all_left (all_left (all_left (all_left hc))))))
  have hcb : (xmlViolations info bs).all xmlChar = true :=
    all_right (all_left (all_left (all_left hc)))
  have front := xmlText_front dt (numberOfFiles w.collector) (numberOfFilesWithViolations w.collector)
    n1 n2 n3 hd hne
  have dec := front_decode dt (numberOfFiles w.collector) (numberOfFilesWithViolations w.collector)
    n1 n2 n3 hd
  generalize xmlHeader versionText ++ ("<datetime>".toList ++ dt ++ "</datetime>".toList)
      ++ ("<summary>".toList
        ++ xmlProperty "number of files".toList (numberOfFiles w.collector)
        ++ xmlProperty "files with violations".toList (numberOfFilesWithViolations w.collector)
        ++ xmlProperty "number of priority 1 violations".toList n1
        ++ xmlProperty "number of priority 2 violations".toList n2
        ++ xmlProperty "number of priority 3 violations".toList n3
        ++ "</summary>".toList)
      ++ "<violations>".toList = A at front hr
  simp only [List.append_assoc] at hr
  have h1 : Reads (.text []) (xmlViolations info vs ++ ("</violations>".toList ++
      ("<clangstaticanalyzer>".toList ++ (xmlViolations info bs ++ ("</clangstaticanalyzer>".toList ++
        ("</oclint>".toList ++ endl))))))
      (vs.flatMap (violationXml info) ++
        ([.close "violations".toList, .open "clangstaticanalyzer".toList []] ++
          (bs.flatMap (violationXml info) ++
            [.close "clangstaticanalyzer".toList, .close "oclint".toList, .text ['\n']]))) := by
    refine Reads.step ?_ (front _) dec
    simp only [List.append_assoc, List.cons_append, List.nil_append] at hr ⊢
    exact hr
  have hv := xmlViolations_exact info vs _ _ h1 hcv
  refine ⟨hv, ?_⟩
  have h2 := h1.step (xmlViolations_run info vs hv _)
    (decodeToks_flatMap _ _ _ (fun v h => violationXml_decode info v (hv v h)))
  refine xmlViolations_exact info bs ("</clangstaticanalyzer>".toList ++ ("</oclint>".toList ++ endl))
    _ (h2.step
    (ts := [.close "violations".toList, .open "clangstaticanalyzer".toList []]) ?_ rfl) hcb
  rw [lit_violationsEnd, lit_csa]
  simp only [List.append_assoc, List.cons_append, List.nil_append]
  rw [lex_endTag _ _ (by decide), lex_tag _ _ (by decide), emit_emit]
  rfl

/-! ## PMD -/

/-- The attributes as the PMD reporter writes them. -/
def pmdAttrText (A : List (Str × Str)) : Str := A.flatMap fun p => pmdAttribute p.1 p.2

theorem pmdAttrs_exact (n r : Str) (E : List Tok) (A : List (Str × Str)) : ∀ as,
    Reads (.inTag n as) (pmdAttrText A ++ r) (.open n (as ++ A) :: E) → PlainAttrs as →
    (∀ p ∈ A, isName p.1 = true) → (pmdAttrText A).all xmlChar = true → ∀ p ∈ A, XmlSafe p.2 := by
  induction A with
  | nil => intro as _ _ _ _ p hp; simp at hp
  | cons a A ih =>
    obtain ⟨k, P⟩ := a
    intro as h ha hn hc
    have ht : pmdAttrText ((k, P) :: A) = pmdAttribute k P ++ pmdAttrText A := rfl
    rw [ht] at h hc
    have hP : P.all xmlChar = true := by
      have := all_left hc
      unfold pmdAttribute at this
      exact all_right (all_left this)
    have h' := h
    unfold pmdAttribute at h
    simp only [List.append_assoc, List.cons_append, List.nil_append] at h
    obtain ⟨hs, -⟩ := h.attr (hn (k, P) (by simp)) ha hP
    rw [List.append_assoc] at h'
    have h2 := h'.move (pmdAttribute_run n as k P _ (hn (k, P) (by simp)) (xmlSafe_quote hs))
    have := ih (as ++ [(k, P)]) (by rwa [List.append_assoc, List.singleton_append])
      (plainAttrs_append _ _ ha (plainAttrs_cons _ _ _ (xmlSafe_value hs) plainAttrs_nil))
      (fun p hp => hn p (by simp [hp])) (all_right hc)
    intro p hp
    rcases List.mem_cons.1 hp with rfl | hp
    · exact hs
    · exact this p hp

/-- The attributes of the violation element of a record. -/
def recordAttrs (v : Violation) (rule : List (Str × Str)) : List (Str × Str) :=
  [("begincolumn".toList, decimalInt v.startColumn), ("endcolumn".toList, decimalInt v.endColumn),
    ("beginline".toList, decimalInt v.startLine), ("endline".toList, decimalInt v.endLine)] ++ rule

theorem pmdWrite_attrs (v : Violation) (d : Option PMDRuleDescription) :
    pmdWrite v d = "<file name=\"".toList ++ (v.path ++ ("\">".toList ++ (endl ++
      ("<violation ".toList ++ (pmdAttrText (recordAttrs v (descAttrs d)) ++ (">".toList ++ (endl ++
      (xmlEscape v.message ++ (endl ++ ("</violation>".toList ++ (endl ++
      ("</file>".toList ++ endl)))))))))))) := by
  unfold pmdWrite recordAttrs pmdAttrText
  cases d with
  | none =>
    simp only [toStringInt_eq, descAttrs, List.flatMap_cons, List.flatMap_nil, List.append_assoc,
      List.cons_append, List.nil_append]
  | some x =>
    simp only [toStringInt_eq, descAttrs, pmdRule, pmdRuleAttrs, List.flatMap_cons, List.flatMap_nil,
      List.append_assoc, List.cons_append, List.nil_append]

theorem recordAttrs_names (v : Violation) (d : Option PMDRuleDescription) :
    ∀ p ∈ recordAttrs v (descAttrs d), isName p.1 = true := by
  have h : ∀ k : Str, ∀ x : Str, ∀ p : Str × Str, isName k = true → p = (k, x) → isName p.1 = true :=
    fun k x p hk e => by rw [e]; exact hk
  intro p hp
  unfold recordAttrs at hp
  rcases List.mem_append.1 hp with hp | hp
  · simp only [List.mem_cons, List.not_mem_nil, or_false] at hp
    rcases hp with hp | hp | hp | hp
    all_goals exact h _ _ p (by decide) hp
  · cases d with
    | none => cases hp
    | some x =>
      simp only [descAttrs, pmdRuleAttrs, List.mem_cons, List.not_mem_nil, or_false] at hp
      rcases hp with hp | hp | hp
      all_goals exact h _ _ p (by decide) hp

theorem unescape_chars (s : Str) (h : (xmlEscape s).all xmlChar = true) : s.all xmlChar = true := by
  rw [xmlEscape_eq] at h
  induction s with
  | nil => rfl
  | cons c s ih =>
    rw [List.flatMap_cons] at h
    rw [List.all_cons, ih (all_right h), Bool.and_true]
    have hc := all_left h
    unfold xmlEscapeChar at hc
    split_ifs at hc with h1 h2 h3 h4 h5
    · subst h1; decide
    · subst h2; decide
    · subst h3; decide
    · subst h4; decide
    · subst h5; decide
    · simpa using hc

theorem pmdWrite_exact (v : Violation) (d : Option PMDRuleDescription) (acc r : Str) (E : List Tok)
    (hacc : decodeToks (textTok acc) = some (textTok acc))
    (h : Reads (.text acc) (pmdWrite v d ++ endl ++ r) (textTok acc ++ (recordPmd v (descAttrs d) ++ E)))
    (hc : (pmdWrite v d).all xmlChar = true) : PmdSafe v d := by
  rw [pmdWrite_attrs] at h hc
  have hm := unescape_chars _ (all_left (all_right (all_right (all_right (all_right (all_right
    (all_right (all_right (all_right hc)))))))))
  have hpc : v.path.all xmlChar = true := all_left (all_right hc)
  have hac := all_left (all_right (all_right (all_right (all_right (all_right hc)))))
  rw [lit_file, lit_propertyMid, lit_violationSp] at h
  simp only [List.append_assoc, List.cons_append, List.nil_append] at h
  have h1 := (h.step (lex_lt acc _) hacc).move (lex_openSpace "file".toList _ (by decide))
  have hp : XmlSafe v.path := (h1.attr (by decide) plainAttrs_nil hpc).1
  have h2 := (h1.move (lex_attr _ _ _ _ _ (by decide) (xmlSafe_quote hp))).step (lex_valueEnd _ _ _)
    (ts' := [.open "file".toList [("name".toList, v.path)]])
    (decodeToks_cons _ _ _ _ (decodeTok_open _ _ (plainAttrs_cons _ _ _ (xmlSafe_value hp)
      plainAttrs_nil)) rfl)
  have h3 := ((h2.move (lex_newline [] _)).step (lex_lt ['\n'] _) (ts' := [.text ['\n']])
    (by decide)).move (lex_openSpace "violation".toList _ (by decide))
  have hs := pmdAttrs_exact _ _ _ _ [] h3 plainAttrs_nil (recordAttrs_names v d) hac
  refine ⟨hp, hm, ?_⟩
  rintro x rfl
  unfold recordAttrs descAttrs pmdRuleAttrs at hs
  exact ⟨hs _ (List.mem_append_right _ (List.mem_cons_of_mem _ List.mem_cons_self)),
    hs _ (List.mem_append_right _ (List.mem_cons_of_mem _ (List.mem_cons_of_mem _
      List.mem_cons_self)))⟩

theorem pmdWrites_exact (l : List (Violation × Option PMDRuleDescription)) (r : Str) (E : List Tok) :
    ∀ acc, decodeToks (textTok acc) = some (textTok acc) →
    Reads (.text acc) (l.flatMap (fun p => pmdWrite p.1 p.2 ++ endl) ++ r)
      (textTok acc ++ (l.flatMap (fun p => recordPmd p.1 (descAttrs p.2)) ++ E)) →
    (l.flatMap (fun p => pmdWrite p.1 p.2 ++ endl)).all xmlChar = true →
    ∀ p ∈ l, PmdSafe p.1 p.2 := by
  induction l with
  | nil => intro acc _ _ _ p hp; simp at hp
  | cons a l ih =>
    intro acc hacc h hc
    rw [List.flatMap_cons, List.append_assoc (pmdWrite a.1 a.2 ++ endl), List.flatMap_cons,
      List.append_assoc (recordPmd a.1 (descAttrs a.2))] at h
    rw [List.flatMap_cons] at hc
    have ha := pmdWrite_exact a.1 a.2 acc _ _ hacc h (all_left (all_left hc))
    have e : recordPmd a.1 (descAttrs a.2) =
        (recordPmd a.1 (descAttrs a.2)).take 7 ++ textTok ['\n', '\n'] := rfl
    have hd : decodeToks (recordInit a.1 (descAttrs a.2)) =
        some ((recordPmd a.1 (descAttrs a.2)).take 7) := by
      have h0 := record_decode a.1 a.2 ha
      unfold recordRaw at h0
      have hx : decodeToks [.text ['\n', '\n']] = some [.text ['\n', '\n']] := by decide
      cases hi : decodeToks (recordInit a.1 (descAttrs a.2)) with
      | none =>
        exfalso
        have : ∀ (x y : List Tok), decodeToks x = none → decodeToks (x ++ y) = none := by
          intro x y
          induction x with
          | nil => intro hx; cases hx
          | cons t x ihx =>
            intro hx
            rw [decodeToks] at hx
            rw [List.cons_append, decodeToks]
            cases ht : decodeTok t with
            | none => rfl
            | some t' =>
              rw [ht] at hx
              simp only [Option.bind_some, Option.map_eq_none_iff] at hx ⊢
              exact ihx hx
        rw [this _ _ hi] at h0
        cases h0
      | some z =>
        rw [decodeToks_append _ _ _ _ hi hx] at h0
        simp only [Option.some.injEq] at h0
        rw [e, textTok_newlines] at h0
        rw [List.append_cancel_right h0]
    rw [e, List.append_assoc (List.take 7 _), ← List.append_assoc (textTok acc)] at h
    have h' := h.step (pmdWrite_run a.1 a.2 ha acc _) (decodeToks_append _ _ _ _ hacc hd)
    have := ih ['\n', '\n'] (by decide) h' (all_right hc)
    intro p hp
    rcases List.mem_cons.1 hp with rfl | hp
    · exact ha
    · exact this p hp

/-- **C55 (PMD).** The report reads back as what it is about exactly if the paths and the texts of the
rules have no `<`, `&`, double quote or control character, and the messages no control character except
newlines and tabs. -/
theorem C55_pmd_exact (info : RuleId → RuleInfo) (w : ResultsView)
    (hp : ∀ v ∈ w.answer .violations, PmdPriority info v) :
    (∃ s, pmdReport info w = .ok s ∧
      readXml s = some (reportPmd info (w.answer .errors) (w.answer .warnings)
        (w.answer .violations) (w.answer .checkerBugs))) ↔
    (∀ v ∈ w.answer .violations, PmdClean info v) ∧
      ∀ ch, ch ≠ .violations → ∀ v ∈ w.answer ch, XmlSafe v.path ∧ v.message.all xmlChar = true := by
  refine ⟨?_, fun h => C55_pmd_reads_back_partial info w hp h.1 h.2⟩
  rintro ⟨s, hs, hread⟩
  rw [pmdReport_eq info w hp] at hs
  simp only [Outcome.ok.injEq] at hs
  subst hs
  rw [reportPmd_records] at hread
  obtain ⟨hc, hr⟩ := readXml_reads _ _ hread
  have h1 := hr.step (ts := [.pi "xml version=\"1.0\" encoding=\"UTF-8\"".toList,
      .text ['\n'], .open "pmd".toList [("version".toList, "oclint-24.11".toList)]])
      (lexRun_append _ _ _ (.text []) _ (by decide +kernel)) (by decide +kernel)
  have hsafe := pmdWrites_exact _ _ _ [] (by decide) h1 (all_left (all_right hc))
  have hmem : ∀ v d, (v, d) ∈ pmdRecords (descOf info) w → PmdSafe v d := fun v d h => hsafe _ h
  unfold pmdRecords at hmem
  refine ⟨fun v hv => ?_, fun ch hch v hv => ?_⟩
  · obtain ⟨h1, h2, h3⟩ := hmem v (descOf info v) (List.mem_append_right _ (List.mem_append_right _
      (List.mem_append_left _ (List.mem_map_of_mem hv))))
    refine ⟨h1, h2, fun i hi => h3 ⟨(info i).name, (info i).category, 2 * (info i).priority - 1⟩ ?_⟩
    unfold descOf
    rw [hi]
    rfl
  · cases ch with
    | violations => exact absurd rfl hch
    | errors =>
      obtain ⟨h1, h2, -⟩ := hmem v _ (List.mem_append_left _ (List.mem_map_of_mem hv))
      exact ⟨h1, h2⟩
    | warnings =>
      obtain ⟨h1, h2, -⟩ := hmem v _ (List.mem_append_right _ (List.mem_append_left _
        (List.mem_map_of_mem hv)))
      exact ⟨h1, h2⟩
    | checkerBugs =>
      obtain ⟨h1, h2, -⟩ := hmem v _ (List.mem_append_right _ (List.mem_append_right _
        (List.mem_append_right _ (List.mem_map_of_mem hv))))
      exact ⟨h1, h2⟩

/-! ## HTML -/

theorem Reads.scans {s r : Str} {ts E : List Tok} (h : Reads (.text []) (s ++ r) (ts ++ E))
    (hs : Scans s ts) : Reads (.text []) r E :=
  h.step (hs.run r) hs.dec

theorem htmlSafe_of_parts {T : Str} (h : ∀ c ∈ T, c ≠ '&' ∧ c ≠ '<') (hc : T.all xmlChar = true) :
    HtmlSafe T := by
  rw [List.all_eq_true] at hc
  exact fun c hm => ⟨(h c hm).2, (h c hm).1, hc c hm⟩

theorem cell_exact (T r : Str) (E : List Tok)
    (h : Reads (.text []) (htmlCell T ++ r) (cellToks [] T ++ E))
    (hc : (htmlCell T).all xmlChar = true) : HtmlSafe T := by
  by_cases hT : T = []
  · subst hT
    intro c hm
    cases hm
  · unfold htmlCell at h hc
    unfold cellToks at h
    rw [if_neg hT, lit_td, lit_tdEnd] at h
    simp only [List.append_assoc, List.cons_append, List.nil_append] at h
    have h1 := h.step (ts' := [.open "td".toList []]) (lex_tag _ _ (by decide)) rfl
    exact htmlSafe_of_parts h1.text (all_right (all_left hc))

theorem row_exact (v : Violation) (rule category cls priority r : Str) (E : List Tok)
    (hcl : XmlSafe cls) (hq : '\'' ∉ cls) (hpr : HtmlSafe priority)
    (h : Reads (.text []) (("<tr>".toList ++ htmlCell v.path ++ htmlCell (htmlLocation v) ++ htmlCell rule
      ++ htmlCell category ++ htmlClassCell cls priority ++ htmlCell v.message ++ "</tr>".toList) ++ r)
      (rowToks v rule category cls priority ++ E))
    (hc : ("<tr>".toList ++ htmlCell v.path ++ htmlCell (htmlLocation v) ++ htmlCell rule
      ++ htmlCell category ++ htmlClassCell cls priority ++ htmlCell v.message ++ "</tr>".toList).all
        xmlChar = true) :
    HtmlSafe v.path ∧ HtmlSafe v.message ∧ HtmlSafe rule ∧ HtmlSafe category := by
  have hl := scans_cell _ (htmlSafe_location v)
  have e : htmlLocation v = decimalInt v.startLine ++ [':'] ++ decimalInt v.startColumn := by
    unfold htmlLocation; rw [toStringInt_eq, toStringInt_eq]
  rw [e] at hl h hc
  unfold rowToks at h
  generalize decimalInt v.startLine ++ [':'] ++ decimalInt v.startColumn = loc at hl h hc
  simp only [List.append_assoc] at h
  have h1 := h.scans scans_tr
  have c1 := all_right (all_left (all_left (all_left (all_left (all_left (all_left hc))))))
  have s1 := cell_exact _ _ _ h1 c1
  have h2 := (h1.scans (scans_cell _ s1)).scans hl
  have s2 := cell_exact _ _ _ h2 (all_right (all_left (all_left (all_left (all_left hc)))))
  have h3 := h2.scans (scans_cell _ s2)
  have s3 := cell_exact _ _ _ h3 (all_right (all_left (all_left (all_left hc))))
  have h4 := (h3.scans (scans_cell _ s3)).scans (scans_classCell cls priority hcl hq hpr)
  have s4 := cell_exact _ _ _ h4 (all_right (all_left hc))
  exact ⟨s1, s4, s2, s3⟩

theorem flatMap_exact (f : Violation → Str) (g : Violation → List Tok) (P : Violation → Prop)
    (vs : List Violation) (r : Str) (E : List Tok)
    (hP : ∀ v ∈ vs, ∀ r E, Reads (.text []) (f v ++ r) (g v ++ E) → (f v).all xmlChar = true →
      P v ∧ Scans (f v) (g v))
    (h : Reads (.text []) (vs.flatMap f ++ r) (vs.flatMap g ++ E))
    (hc : (vs.flatMap f).all xmlChar = true) : (∀ v ∈ vs, P v) ∧ Reads (.text []) r E := by
  induction vs with
  | nil => exact ⟨by simp, h⟩
  | cons v vs ih =>
    rw [List.flatMap_cons, List.append_assoc (f v), List.flatMap_cons, List.append_assoc (g v)] at h
    rw [List.flatMap_cons] at hc
    obtain ⟨h1, h2⟩ := hP v (by simp) _ _ h (all_left hc)
    obtain ⟨h3, h4⟩ := ih (fun u hu => hP u (by simp [hu])) (h.scans h2) (all_right hc)
    refine ⟨fun u hu => ?_, h4⟩
    rcases List.mem_cons.1 hu with rfl | hu
    · exact h1
    · exact h3 u hu

theorem diag_exact (level rule cls : Str) (e1 : "compiler ".toList ++ level = rule)
    (e2 : "cmplr-".toList ++ level = cls) (hl : xmlSafeB level = true)
    (h1 : xmlSafeB rule = true) (h2 : xmlSafeB cls = true) (hq : '\'' ∉ cls) (v : Violation) (r : Str)
    (E : List Tok) (h : Reads (.text []) (htmlDiagnostic v level ++ r) (rowToks v rule [] cls level ++ E))
    (hc : (htmlDiagnostic v level).all xmlChar = true) :
    (HtmlSafe v.path ∧ HtmlSafe v.message) ∧ Scans (htmlDiagnostic v level) (rowToks v rule [] cls level) := by
  have key : HtmlSafe v.path ∧ HtmlSafe v.message := by
    unfold htmlDiagnostic at h hc
    rw [e1, e2] at h hc
    obtain ⟨a, b, -⟩ := row_exact v rule [] cls level r E (xmlSafe_of _ h2) hq (htmlSafe_fixed _ hl) h hc
    exact ⟨a, b⟩
  exact ⟨key, scans_diag v level rule cls e1 e2 key.1 key.2 hl h1 h2 hq⟩

/-- **C55 (HTML).** The rows of the details table read back as the violations, errors, warnings and
findings exactly if no text shown has a `<`, `&` or control character except newlines and tabs. -/
theorem C55_html_exact (info : RuleId → RuleInfo) (w : ResultsView)
    (hrule : ∀ v ∈ w.answer .violations, v.rule ≠ none) :
    (∃ rows, htmlRows info w = .ok rows ∧
      scanXml rows = some (rowsHtml info (w.answer .errors) (w.answer .warnings)
        (w.answer .violations) (w.answer .checkerBugs))) ↔
    (∀ v ∈ w.answer .violations, HtmlClean info v) ∧
      ∀ ch, ch ≠ .violations → ∀ v ∈ w.answer ch, HtmlSafe v.path ∧ HtmlSafe v.message := by
  rw [htmlRows_eq info w hrule]
  refine ⟨?_, fun h => ⟨_, rfl, (scans_rows info w h.1 h.2).scan⟩⟩
  rintro ⟨rows, hr, hs⟩
  simp only [Outcome.ok.injEq] at hr
  subst hr
  obtain ⟨hc, hr⟩ := scanXml_reads _ _ hs
  unfold rowsHtml at hr
  have hr' : Reads (.text []) ((w.answer .violations).flatMap (htmlRowText info) ++
      ((w.answer .errors).flatMap (fun v => htmlDiagnostic v "error".toList) ++
      ((w.answer .warnings).flatMap (fun v => htmlDiagnostic v "warning".toList) ++
      ((w.answer .checkerBugs).flatMap htmlCheckerBug ++ []))))
      ((w.answer .violations).flatMap (violationRow info) ++
      ((w.answer .errors).flatMap
        (fun v => rowToks v "compiler error".toList [] "cmplr-error".toList "error".toList) ++
      ((w.answer .warnings).flatMap
        (fun v => rowToks v "compiler warning".toList [] "cmplr-warning".toList "warning".toList) ++
      ((w.answer .checkerBugs).flatMap (fun v => rowToks v "clang static analyzer".toList []
        "checker-bug".toList "checker bug".toList) ++ [])))) := by
    simp only [List.append_assoc, List.append_nil] at hr ⊢
    exact hr
  obtain ⟨hv, hr1⟩ := flatMap_exact _ _ (HtmlClean info) _ _ _ (by
    intro v hv r E h hc
    obtain ⟨i, hi⟩ := Option.ne_none_iff_exists'.1 (hrule v hv)
    unfold htmlRowText at h hc ⊢
    unfold violationRow at h ⊢
    rw [hi] at h hc ⊢
    simp only at h hc ⊢
    obtain ⟨a, b, c, d⟩ := row_exact v _ _ _ _ r E (safe_priorityClass _) (not_mem_priorityClass _)
      (htmlSafe_of_xml (xmlSafe_decimalInt _)) h hc
    refine ⟨⟨a, b, fun j hj => ?_⟩, scans_row v _ _ _ _ a b c d (safe_priorityClass _)
        (not_mem_priorityClass _) (htmlSafe_of_xml (xmlSafe_decimalInt _))⟩
    rw [hi] at hj
    cases hj
    exact ⟨c, d⟩) hr' (all_left (all_left (all_left hc)))
  obtain ⟨he, hr2⟩ := flatMap_exact _ _ (fun v => HtmlSafe v.path ∧ HtmlSafe v.message) _ _ _
    (fun v _ r E h hc => diag_exact _ _ _ (by decide) (by decide) (by decide) (by decide) (by decide)
      (by decide) v r E h hc) hr1 (all_right (all_left (all_left hc)))
  obtain ⟨hw, hr3⟩ := flatMap_exact _ _ (fun v => HtmlSafe v.path ∧ HtmlSafe v.message) _ _ _
    (fun v _ r E h hc => diag_exact _ _ _ (by decide) (by decide) (by decide) (by decide) (by decide)
      (by decide) v r E h hc) hr2 (all_right (all_left hc))
  obtain ⟨hb, -⟩ := flatMap_exact _ _ (fun v => HtmlSafe v.path ∧ HtmlSafe v.message) _ _ _
    (fun v _ r E h hc => by
      obtain ⟨a, b, -⟩ := row_exact v _ _ _ _ r E (xmlSafe_of _ (by decide)) (by decide)
        (htmlSafe_fixed _ (by decide)) h hc
      exact ⟨⟨a, b⟩, scans_bug v a b⟩) hr3 (all_right hc)
  refine ⟨hv, fun ch hch => ?_⟩
  cases ch with
  | violations => exact absurd rfl hch
  | errors => exact he
  | warnings => exact hw
  | checkerBugs => exact hb

/-- A message with an ampersand: the PMD report can read back, the XML report cannot. -/
example (info : RuleId → RuleInfo) (tm : Tm) (w : ResultsView) (ht : IsInt32 (tm.year + 1900))
    (v : Violation) (hrule : ∀ u ∈ w.answer .violations, u.rule ≠ none)
    (hv : v ∈ w.answer .violations) (hm : v.message = "a && b".toList) :
    ¬ ∃ s dt, xmlReport info (some tm) w = .ok s ∧
      xmlDatetime (some tm) = .ok ("<datetime>".toList ++ dt ++ "</datetime>".toList) ∧
      readXml s = some (reportXml info dt (numberOfFiles w.collector)
        (numberOfFilesWithViolations w.collector) (w.answer .violations)
        (w.answer .checkerBugs)) := by
  rw [C55_xml_exact info tm w ht hrule]
  rintro ⟨h, -⟩
  have := (h v hv).2.1
  rw [hm] at this
  exact (this '&' (by decide)).2.1 rfl

end Oclint
