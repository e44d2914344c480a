import Verif.Spec.RulesReport
import Verif.Props.ReportRun
import Verif.Props.TreeRun
import Verif.Props.MetricRun

/-!
# The report of a run of rules (C107)
-/

namespace Oclint
open Spec

variable {τ κ : Type}

section Rules
variable [DecidableEq κ] (m : Machine TreeUnit (RuleId → RuleMemory τ) κ) (v : Voices TreeUnit)
  (cli : CommandLine) (st : OptionState) (hst : processOptions m.env cli = .ok st) (clock : Clock)
  (plug : Str → ReporterPlugin) (hload : RulesLoad m st) (r : Str) (hr : ReporterAt m st r)
  (hw : CanWrite m st) (apple : Bool) (body : RuleId → RuleBody τ) (limit : Int)
  (lines : TreeUnit → List Str) (found : RuleId → TreeUnit → List Finding)
  (rs bugs : List (CompileResult TreeUnit))
  (h : RulesRun m st apple body limit lines found rs bugs)
  (hrules : ∀ rule ∈ runningRules m st, IsShipped rule)
  (hship : ∀ c, analysis m st = .ok c → ShippedReporters m v shippedInfo clock plug c)

omit [DecidableEq κ] in
include h in
/-- What the reporters are told by a run of rules. -/
theorem C107_told : ∃ c, analysis m st = .ok c ∧
    answers st c .violations = onceUnless st.argDuplications.value
      (allReports apple body limit lines found (runningRules m st) (rs.filterMap unitOf)) ∧
    answers st c .errors = toldDiagnostics st (fun l => l = .error ∨ l = .fatal) rs ∧
    answers st c .warnings = toldDiagnostics st (fun l => l = .warning) rs ∧
    answers st c .checkerBugs = toldDiagnostics st (fun _ => true) bugs ∧
    numberOfFiles c = (rs.filterMap unitOf).length ∧
    numberOfFilesWithViolations c = filesReported ((rs.filterMap unitOf).map fun u =>
      (runningRules m st).flatMap (reportsOf apple limit lines found body u)) := by
  refine ⟨_, C104_collected m st apple body limit lines found rs bugs h, ?_, ?_, ?_, ?_, ?_, ?_⟩
  · unfold answers onceUnless allReports rawAll collected
    simp only [ResultCollector.empty, List.nil_append]
    rw [collectAll_eq, ← List.flatMap_def]
  iterate 3
    · unfold answers toldDiagnostics onceUnless rawAll collected
      simp only [ResultCollector.empty, List.nil_append]
  · unfold numberOfFiles collected
    simp only [ResultCollector.empty, List.nil_append, List.length_map]
  · rw [numberOfFilesWithViolations_eq]
    unfold filesReported headPaths collected
    simp only [ResultCollector.empty, List.nil_append]
    rw [List.map_filterMap (f := List.head?)]

theorem mem_onceUnless {d : Bool} {vs : List Violation} {w : Violation} (hw : w ∈ onceUnless d vs) :
    w ∈ vs := by
  unfold onceUnless at hw
  split at hw
  · exact hw
  · exact (mem_firsts _ _).1 hw

theorem mem_toldDiagnostics {U : Type} {st : OptionState} {level : DiagLevel → Bool}
    {rs : List (CompileResult U)} {w : Violation} (hw : w ∈ toldDiagnostics st level rs) :
    ∃ x ∈ rs, ∃ d ∈ x.diagnostics, w = diagnosticEntry d := by
  have hw := mem_onceUnless hw
  unfold entriesOf at hw
  obtain ⟨d, hd, rfl⟩ := List.mem_map.1 hw
  obtain ⟨x, hx, hd⟩ := List.mem_flatMap.1 (List.mem_filter.1 hd).1
  exact ⟨x, hx, d, hd, rfl⟩

theorem reportOf_rule {apple : Bool} {name : Str} {rule : RuleId} {u : TreeUnit} {f : Finding}
    {w : Violation} (hw : reportOf apple name rule u f = some w) :
    w.rule = some rule ∧ w.message = f.message ∧ ∃ n, f.node = some n ∧ w.path = (u.locOf n).filename := by
  unfold reportOf at hw
  cases hn : f.node with
  | none => rw [hn] at hw; cases hw
  | some n =>
    rw [hn] at hw
    simp only at hw
    split at hw
    · cases hw
    · cases hw
      exact ⟨rfl, rfl, n, rfl, rfl⟩

theorem mem_allReports {apple : Bool} {body : RuleId → RuleBody τ} {limit : Int}
    {lines : TreeUnit → List Str} {found : RuleId → TreeUnit → List Finding} {rules : List RuleId}
    {us : List TreeUnit} {w : Violation} (hw : w ∈ allReports apple body limit lines found rules us) :
    ∃ rule ∈ rules, w.rule = some rule := by
  unfold allReports at hw
  obtain ⟨u, hu, hw⟩ := List.mem_flatMap.1 hw
  obtain ⟨rule, hrule, hw⟩ := List.mem_flatMap.1 hw
  refine ⟨rule, hrule, ?_⟩
  unfold reportsOf at hw
  split at hw
  · obtain ⟨f, hf, hw⟩ := List.mem_filterMap.1 hw
    exact (reportOf_rule hw).1
  · obtain ⟨_, _, -, -, rfl⟩ := (mem_tooLongLines _ _ _ _ _ _).1 hw
    rfl

omit [DecidableEq κ] in
include hrules in
theorem told_shipped {w : Violation} (hw : w ∈ onceUnless st.argDuplications.value
      (allReports apple body limit lines found (runningRules m st) (rs.filterMap unitOf))) :
    ∃ rule, w.rule = some rule ∧ IsShipped rule := by
  obtain ⟨rule, h1, h2⟩ := mem_allReports (mem_onceUnless hw)
  exact ⟨rule, h2, hrules rule h1⟩

include hst hload hr hw h hrules hship

/-- A JSON report of a run of rules reads back as exactly what they find and is not silenced, if paths
and messages have no quotes, backslashes or control characters. -/
theorem C107_json (hp : st.argReportType.value = "json".toList)
    (hclean : ∀ w ∈ allReports apple body limit lines found (runningRules m st) (rs.filterMap unitOf),
      JsonSafe w.path ∧ JsonSafe w.message)
    (hbugs : ∀ x ∈ bugs, ∀ d ∈ x.diagnostics, JsonClean shippedInfo (diagnosticEntry d)) :
    ∃ s, Delivered m v cli st s ∧
      readJson s = some (reportJson shippedInfo (toInt32 clock.now) (rs.filterMap unitOf).length
        (filesReported ((rs.filterMap unitOf).map fun u =>
          (runningRules m st).flatMap (reportsOf apple limit lines found body u)))
        (onceUnless st.argDuplications.value
          (allReports apple body limit lines found (runningRules m st) (rs.filterMap unitOf)))
        (toldDiagnostics st (fun _ => true) bugs)) := by
  obtain ⟨c, hc, h1, -, -, h2, h3, h4⟩ := C107_told m st apple body limit lines found rs bugs h
  have := C102_json m v cli st hst shippedInfo clock plug c hload r hr hc (hship c hc) hw hp
    (by
      intro w hw
      rw [h1] at hw
      obtain ⟨rule, e, hs⟩ := told_shipped m st apple body limit lines found rs hrules hw
      exact ((C94_reports w rule e hs).2.1).2 (hclean w (mem_onceUnless hw)))
    (by
      intro w hw
      rw [h2] at hw
      obtain ⟨x, hx, d, hd, rfl⟩ := mem_toldDiagnostics hw
      exact hbugs x hx d hd)
  rw [h1, h2, h3, h4] at this
  exact this

/-- The same for XML; paths and messages have no `<`, `&`, double quotes or control characters. -/
theorem C107_xml (hp : st.argReportType.value = "xml".toList)
    (tm : Tm) (ht : clock.utc = some tm) (hyear : IsInt32 (tm.year + 1900))
    (hclean : ∀ w ∈ allReports apple body limit lines found (runningRules m st) (rs.filterMap unitOf),
      XmlSafe w.path ∧ XmlSafe w.message)
    (hbugs : ∀ x ∈ bugs, ∀ d ∈ x.diagnostics, XmlClean shippedInfo (diagnosticEntry d)) :
    ∃ s dt, Delivered m v cli st s ∧
      xmlDatetime (some tm) = .ok ("<datetime>".toList ++ dt ++ "</datetime>".toList) ∧
      readXml s = some (reportXml shippedInfo dt (rs.filterMap unitOf).length
        (filesReported ((rs.filterMap unitOf).map fun u =>
          (runningRules m st).flatMap (reportsOf apple limit lines found body u)))
        (onceUnless st.argDuplications.value
          (allReports apple body limit lines found (runningRules m st) (rs.filterMap unitOf)))
        (toldDiagnostics st (fun _ => true) bugs)) := by
  obtain ⟨c, hc, h1, -, -, h2, h3, h4⟩ := C107_told m st apple body limit lines found rs bugs h
  have := C102_xml m v cli st hst shippedInfo clock plug c hload r hr hc (hship c hc) hw hp tm ht hyear
    (by
      intro w hw
      rw [h1] at hw
      obtain ⟨rule, e, hs⟩ := told_shipped m st apple body limit lines found rs hrules hw
      exact ((C94_reports w rule e hs).2.2.1).2 (hclean w (mem_onceUnless hw)))
    (by
      intro w hw
      rw [h2] at hw
      obtain ⟨x, hx, d, hd, rfl⟩ := mem_toldDiagnostics hw
      exact hbugs x hx d hd)
  rw [h1, h2, h3, h4] at this
  exact this

/-- The same for PMD. -/
theorem C107_pmd (hp : st.argReportType.value = "pmd".toList)
    (hclean : ∀ w ∈ allReports apple body limit lines found (runningRules m st) (rs.filterMap unitOf),
      XmlSafe w.path ∧ w.message.all xmlChar = true)
    (hdiag : ∀ x ∈ rs ++ bugs, ∀ d ∈ x.diagnostics, PmdClean shippedInfo (diagnosticEntry d)) :
    ∃ s, Delivered m v cli st s ∧
      readXml s = some (reportPmd shippedInfo
        (toldDiagnostics st (fun l => l = .error ∨ l = .fatal) rs)
        (toldDiagnostics st (fun l => l = .warning) rs)
        (onceUnless st.argDuplications.value
          (allReports apple body limit lines found (runningRules m st) (rs.filterMap unitOf)))
        (toldDiagnostics st (fun _ => true) bugs)) := by
  obtain ⟨c, hc, h1, h5, h6, h2, -, -⟩ := C107_told m st apple body limit lines found rs bugs h
  have hv : ∀ w ∈ answers st c .violations, PmdPriority shippedInfo w ∧ PmdClean shippedInfo w := by
    intro w hw
    rw [h1] at hw
    obtain ⟨rule, e, hs⟩ := told_shipped m st apple body limit lines found rs hrules hw
    have := C94_reports w rule e hs
    exact ⟨this.2.2.2.2.2, (this.2.2.2.1).2 (hclean w (mem_onceUnless hw))⟩
  have := C102_pmd m v cli st hst shippedInfo clock plug c hload r hr hc (hship c hc) hw hp
    (fun w hw => (hv w hw).1)
    (by
      intro ch w hw
      cases ch with
      | violations => exact (hv w hw).2
      | checkerBugs =>
        rw [h2] at hw
        obtain ⟨x, hx, d, hd, rfl⟩ := mem_toldDiagnostics hw
        exact hdiag x (by simp [hx]) d hd
      | errors =>
        rw [h5] at hw
        obtain ⟨x, hx, d, hd, rfl⟩ := mem_toldDiagnostics hw
        exact hdiag x (by simp [hx]) d hd
      | warnings =>
        rw [h6] at hw
        obtain ⟨x, hx, d, hd, rfl⟩ := mem_toldDiagnostics hw
        exact hdiag x (by simp [hx]) d hd)
  rw [h1, h2, h5, h6] at this
  exact this

/-- The same for Xcode; paths have no colons or newlines, messages no newlines. -/
theorem C107_xcode (hp : st.argReportType.value = "xcode".toList)
    (hclean : ∀ w ∈ allReports apple body limit lines found (runningRules m st) (rs.filterMap unitOf),
      ':' ∉ w.path ∧ '\n' ∉ w.path ∧ '\n' ∉ w.message) :
    ∃ s ls, Delivered m v cli st s ∧ linesOf s = ls ++ [[]] ∧
      readAll (readViolationLine " warning: ".toList) ls =
        some (lineRecords shippedInfo (onceUnless st.argDuplications.value
          (allReports apple body limit lines found (runningRules m st) (rs.filterMap unitOf)))) := by
  obtain ⟨c, hc, h1, -⟩ := C107_told m st apple body limit lines found rs bugs h
  have := C102_xcode m v cli st hst shippedInfo clock plug c hload r hr hc (hship c hc) hw hp
    (by
      intro w hw
      rw [h1] at hw
      obtain ⟨rule, e, hs⟩ := told_shipped m st apple body limit lines found rs hrules hw
      exact ((C94_reports w rule e hs).1).2 (hclean w (mem_onceUnless hw)))
  rw [h1] at this
  exact this

/-- The same for text. -/
theorem C107_text (hp : st.argReportType.value = "text".toList)
    (hclean : ∀ w ∈ allReports apple body limit lines found (runningRules m st) (rs.filterMap unitOf),
      ':' ∉ w.path ∧ '\n' ∉ w.path ∧ '\n' ∉ w.message)
    (hdiag : ∀ x ∈ rs ++ bugs, ∀ d ∈ x.diagnostics, DiagClean (diagnosticEntry d)) :
    ∃ s vs, vs = onceUnless st.argDuplications.value
        (allReports apple body limit lines found (runningRules m st) (rs.filterMap unitOf)) ∧
      Delivered m v cli st s ∧ readText s = some
      { errors := (toldDiagnostics st (fun l => l = .error ∨ l = .fatal) rs).map diagRecord
        warnings := (toldDiagnostics st (fun l => l = .warning) rs).map diagRecord
        bugs := (toldDiagnostics st (fun _ => true) bugs).map diagRecord
        files := (rs.filterMap unitOf).length
        filesWithViolations := filesReported ((rs.filterMap unitOf).map fun u =>
          (runningRules m st).flatMap (reportsOf apple limit lines found body u))
        p1 := countWithPriority shippedPriority 1 vs
        p2 := countWithPriority shippedPriority 2 vs
        p3 := countWithPriority shippedPriority 3 vs
        violations := lineRecords shippedInfo vs } := by
  obtain ⟨c, hc, h1, h5, h6, h2, h3, h4⟩ := C107_told m st apple body limit lines found rs bugs h
  have := C102_text m v cli st hst shippedInfo clock plug c hload r hr hc (hship c hc) hw hp
    (by
      intro w hw
      rw [h1] at hw
      obtain ⟨rule, e, hs⟩ := told_shipped m st apple body limit lines found rs hrules hw
      exact ((C94_reports w rule e hs).1).2 (hclean w (mem_onceUnless hw)))
    (by
      intro ch hch w hw
      cases ch with
      | violations => exact absurd rfl hch
      | checkerBugs =>
        rw [h2] at hw
        obtain ⟨x, hx, d, hd, rfl⟩ := mem_toldDiagnostics hw
        exact hdiag x (by simp [hx]) d hd
      | errors =>
        rw [h5] at hw
        obtain ⟨x, hx, d, hd, rfl⟩ := mem_toldDiagnostics hw
        exact hdiag x (by simp [hx]) d hd
      | warnings =>
        rw [h6] at hw
        obtain ⟨x, hx, d, hd, rfl⟩ := mem_toldDiagnostics hw
        exact hdiag x (by simp [hx]) d hd)
  rw [h1, h2, h3, h4, h5, h6] at this
  obtain ⟨s, d, e⟩ := this
  exact ⟨s, _, rfl, d, e⟩

/-- The same for HTML. -/
theorem C107_html (hp : st.argReportType.value = "html".toList)
    (hclean : ∀ w ∈ allReports apple body limit lines found (runningRules m st) (rs.filterMap unitOf),
      HtmlSafe w.path ∧ HtmlSafe w.message)
    (hdiag : ∀ x ∈ rs ++ bugs, ∀ d ∈ x.diagnostics, HtmlClean shippedInfo (diagnosticEntry d)) :
    ∃ vs summary details rows, vs = onceUnless st.argDuplications.value
        (allReports apple body limit lines found (runningRules m st) (rs.filterMap unitOf)) ∧
      Delivered m v cli st ("<!DOCTYPE html><html>".toList ++ htmlHead
        ++ "<body><h1>OCLint Report</h1><h2>Summary</h2>".toList ++ summary
        ++ "<h2>Details</h2>".toList ++ details ++ rows
        ++ "</tbody></table><hr /><p>".toList ++ clock.text
        ++ "| Generated with <a href='https://oclint.org'>OCLint v24.11</a>.</p></body></html>\n".toList) ∧
      scanXml summary = some (summaryHtml (rs.filterMap unitOf).length
        (filesReported ((rs.filterMap unitOf).map fun u =>
          (runningRules m st).flatMap (reportsOf apple limit lines found body u)))
        (countWithPriority shippedPriority 1 vs) (countWithPriority shippedPriority 2 vs)
        (countWithPriority shippedPriority 3 vs)
        (toldDiagnostics st (fun l => l = .error ∨ l = .fatal) rs).length
        (toldDiagnostics st (fun l => l = .warning) rs).length
        (toldDiagnostics st (fun _ => true) bugs).length) ∧
      scanXml details = some detailsHtml ∧
      scanXml rows = some (rowsHtml shippedInfo
        (toldDiagnostics st (fun l => l = .error ∨ l = .fatal) rs)
        (toldDiagnostics st (fun l => l = .warning) rs) vs
        (toldDiagnostics st (fun _ => true) bugs)) := by
  obtain ⟨c, hc, h1, h5, h6, h2, h3, h4⟩ := C107_told m st apple body limit lines found rs bugs h
  have := C102_html m v cli st hst shippedInfo clock plug c hload r hr hc (hship c hc) hw hp
    (by
      intro ch w hw
      cases ch with
      | violations =>
        rw [h1] at hw
        obtain ⟨rule, e, hs⟩ := told_shipped m st apple body limit lines found rs hrules hw
        exact ((C94_reports w rule e hs).2.2.2.2.1).2 (hclean w (mem_onceUnless hw))
      | checkerBugs =>
        rw [h2] at hw
        obtain ⟨x, hx, d, hd, rfl⟩ := mem_toldDiagnostics hw
        exact hdiag x (by simp [hx]) d hd
      | errors =>
        rw [h5] at hw
        obtain ⟨x, hx, d, hd, rfl⟩ := mem_toldDiagnostics hw
        exact hdiag x (by simp [hx]) d hd
      | warnings =>
        rw [h6] at hw
        obtain ⟨x, hx, d, hd, rfl⟩ := mem_toldDiagnostics hw
        exact hdiag x (by simp [hx]) d hd)
  rw [h1, h2, h3, h4, h5, h6] at this
  obtain ⟨summary, details, rows, d1, d2, d3, d4⟩ := this
  exact ⟨_, summary, details, rows, rfl, d1, d2, d3, d4⟩

end Rules

/-! ## Reports about limits -/

theorem messageChar_safe {c : Char} (h : MessageChar c) :
    c ≠ '"' ∧ c ≠ '\\' ∧ c ≠ '<' ∧ c ≠ '&' ∧ c ≠ '\n' ∧ 32 ≤ c.toNat ∧ xmlChar c = true := by
  rcases h with h | h | h
  · exact wordChar_safe (.inl h)
  · exact wordChar_safe (.inr (.inl h))
  · have key : ∀ c ∈ [' ', '-', '+', '_', '`', ',', '.'],
        c ≠ '"' ∧ c ≠ '\\' ∧ c ≠ '<' ∧ c ≠ '&' ∧ c ≠ '\n' ∧ 32 ≤ c.toNat ∧ xmlChar c = true := by
      decide +kernel
    exact key c h

/-- All characters of the text may stand in a message. -/
def MessageText (s : Str) : Prop := ∀ c ∈ s, MessageChar c

theorem messageText_append {s t : Str} (hs : MessageText s) (ht : MessageText t) :
    MessageText (s ++ t) := by
  intro c hc
  rcases List.mem_append.1 hc with h | h
  · exact hs c h
  · exact ht c h

theorem messageText_decimal (i : Int) : MessageText (decimalInt i) := by
  intro c hc
  have d : ∀ k, ∀ c ∈ decimal k, MessageChar c := fun k c hc => .inr (.inl (decimal_all_digits k c hc))
  unfold decimalInt at hc
  split at hc
  · rcases List.mem_cons.1 hc with h | h
    · exact .inr (.inr (by rw [h]; decide))
    · exact d _ c h
  · exact d _ c hc

theorem messageText_shown {name : Str} (limit : Int)
    (hn : ∀ c ∈ name, c.isAlpha = true ∨ c.isDigit = true ∨ c = '_') :
    MessageText (shownName name limit) := by
  have hn' : MessageText name := by
    intro c hc
    rcases hn c hc with h | h | h
    · exact .inl h
    · exact .inr (.inl h)
    · exact .inr (.inr (by rw [h]; decide))
  have dots : MessageText "...".toList := by unfold MessageText MessageChar; decide +kernel
  unfold shownName
  split
  · exact messageText_append (messageText_append (fun c hc => hn' c (List.mem_of_mem_take hc)) dots)
      fun c hc => hn' c (List.mem_of_mem_drop hc)
  · exact hn'

theorem messageText_message (rule : MetricRule) (s : Sight) (value limit : Int)
    (hn : PlainNames [s]) : MessageText (message rule s.construct value limit) := by
  have lit : ∀ t ∈ ["Cyclomatic Complexity Number ".toList, "NPath Complexity Number ".toList,
      "Method of ".toList, " non-commenting source statements".toList, "Block depth of ".toList,
      "Method with ".toList, " lines".toList, " with ".toList, " fields".toList, " methods".toList,
      " parameters".toList, " exceeds limit of ".toList, "Length of variable name `".toList,
      "` is ".toList, ", which is longer than the threshold of ".toList, ([] : Str)],
      MessageText t := by
    unfold MessageText MessageChar
    decide +kernel
  have kinds : ∀ k, MessageText (kindName k ++ " with ".toList) := by
    intro k
    unfold MessageText MessageChar
    cases k <;> decide +kernel
  have counted : ∀ what unit : Str, MessageText what → MessageText unit →
      MessageText (what ++ decimalInt value ++ unit ++ " exceeds limit of ".toList ++
        decimalInt limit) := fun what unit h1 h2 =>
    messageText_append (messageText_append (messageText_append (messageText_append h1
      (messageText_decimal _)) h2) (lit _ (by simp only [List.mem_cons, true_or, or_true]))) (messageText_decimal _)
  have hnil : MessageText [] := fun c hc => absurd hc List.not_mem_nil
  have hname : ∀ n, s.construct = .variable n →
      MessageText ("Length of variable name `".toList ++ shownName n limit
      ++ "` is ".toList ++ decimalInt value ++ ", which is longer than the threshold of ".toList
      ++ decimalInt limit) := fun n e =>
    messageText_append (messageText_append (messageText_append (messageText_append
      (messageText_append (lit _ (by simp only [List.mem_cons, true_or, or_true]))
        (messageText_shown limit (hn s (by simp) n e)))
      (lit _ (by simp only [List.mem_cons, true_or, or_true]))) (messageText_decimal _))
      (lit _ (by simp only [List.mem_cons, true_or, or_true]))) (messageText_decimal _)
  generalize s.construct = c at hname
  cases rule with
  | cyclomatic => exact counted _ _ (lit _ (by simp only [List.mem_cons, true_or, or_true])) hnil
  | npath => exact counted _ _ (lit _ (by simp only [List.mem_cons, true_or, or_true])) hnil
  | depth => exact counted _ _ (lit _ (by simp only [List.mem_cons, true_or, or_true])) hnil
  | ncss => exact counted _ _ (lit _ (by simp only [List.mem_cons, true_or, or_true])) (lit _ (by simp only [List.mem_cons, true_or, or_true]))
  | longMethod => exact counted _ _ (lit _ (by simp only [List.mem_cons, true_or, or_true])) (lit _ (by simp only [List.mem_cons, true_or, or_true]))
  | parameters => exact counted _ _ (lit _ (by simp only [List.mem_cons, true_or, or_true])) (lit _ (by simp only [List.mem_cons, true_or, or_true]))
  | longClass =>
    cases c with
    | cls d => exact counted _ _ (kinds _) (lit _ (by simp only [List.mem_cons, true_or, or_true]))
    | _ => exact hnil
  | fields =>
    cases c with
    | cls d => exact counted _ _ (kinds _) (lit _ (by simp only [List.mem_cons, true_or, or_true]))
    | _ => exact hnil
  | methods =>
    cases c with
    | cls d => exact counted _ _ (kinds _) (lit _ (by simp only [List.mem_cons, true_or, or_true]))
    | _ => exact hnil
  | longName =>
    cases c with
    | «variable» n => exact hname n rfl
    | _ => exact hnil

theorem messageText_oversized {r : MetricRule} {limit : Int} {ss : List Sight} {fs : List Finding}
    (h : Oversized r limit ss fs) (hn : PlainNames ss) : ∀ f ∈ fs, MessageText f.message := by
  induction h with
  | nil => simp
  | @above s ss fs m _ _ _ _ ih =>
    intro f hf
    rcases List.mem_cons.1 hf with rfl | hf
    · exact messageText_message r s m limit fun s' hs' => hn s' (by simp_all)
    · exact ih (fun s hs => hn s (List.mem_cons_of_mem _ hs)) f hf
  | notAbove _ _ _ _ ih => exact ih fun s hs => hn s (List.mem_cons_of_mem _ hs)
  | other _ _ ih => exact ih fun s hs => hn s (List.mem_cons_of_mem _ hs)

/-- Messages about limits have only letters, digits, spaces and a few marks, if the variables have plain
names; so they can stand in every report. -/
theorem C107_limit_messages (apple : Bool) (rules : List MetricRule)
    (sights : TreeUnit → Nat → List Sight) (limits : MetricRule → Int)
    (found : MetricRule → TreeUnit → List Finding) (us : List TreeUnit)
    (hf : ∀ r ∈ rules, ∀ u ∈ us, LimitFindings sights r (limits r) u (found r u))
    (hn : ∀ u ∈ us, ∀ d, PlainNames (sights u d)) (w : Violation)
    (hw : w ∈ limitReports apple rules found us) :
    (∀ c ∈ w.message, MessageChar c) ∧ JsonSafe w.message ∧ XmlSafe w.message ∧ HtmlSafe w.message ∧
      '\n' ∉ w.message ∧ ∃ u ∈ us, ∃ n, w.path = (u.locOf n).filename := by
  unfold limitReports at hw
  obtain ⟨u, hu, hw⟩ := List.mem_flatMap.1 hw
  obtain ⟨r, hr, hw⟩ := List.mem_flatMap.1 hw
  obtain ⟨f, hff, hw⟩ := List.mem_filterMap.1 hw
  obtain ⟨-, e, n, -, hp⟩ := reportOf_rule hw
  have key : ∀ c ∈ w.message, MessageChar c := by
    rw [e]
    rcases hf r hr u hu with ⟨-, ho⟩ | ⟨-, hnil⟩
    · refine messageText_oversized ho ?_ f hff
      intro s hs
      obtain ⟨d, -, hs⟩ := List.mem_flatMap.1 hs
      exact hn u hu d s hs
    · rw [hnil] at hff
      exact absurd hff List.not_mem_nil
  refine ⟨key, fun c hc => ?_, fun c hc => ?_, fun c hc => ?_, fun hc => ?_, u, hu, n, hp⟩
  · have := messageChar_safe (key c hc)
    exact ⟨this.1, this.2.1, this.2.2.2.2.2.1⟩
  · have := messageChar_safe (key c hc)
    exact ⟨this.2.2.1, this.2.2.2.1, this.1, this.2.2.2.2.2.1⟩
  · have := messageChar_safe (key c hc)
    exact ⟨this.2.2.1, this.2.2.2.1, this.2.2.2.2.2.2⟩
  · exact (messageChar_safe (key _ hc)).2.2.2.2.1 rfl

section Limits
variable [DecidableEq κ] (m : Machine TreeUnit (RuleId → RuleMemory Int) κ) (v : Voices TreeUnit)
  (cli : CommandLine) (st : OptionState) (hst : processOptions m.env cli = .ok st) (clock : Clock)
  (plug : Str → ReporterPlugin) (hload : RulesLoad m st) (r : Str) (hr : ReporterAt m st r)
  (hw : CanWrite m st) (apple : Bool) (body : RuleId → RuleBody Int) (rules : List MetricRule)
  (sights : TreeUnit → Nat → List Sight) (limits : MetricRule → Int)
  (found : MetricRule → TreeUnit → List Finding) (rs bugs : List (CompileResult TreeUnit))
  (h : LimitsRun m st apple body rules sights limits found rs bugs)
  (hn : ∀ u ∈ rs.filterMap unitOf, ∀ d, PlainNames (sights u d))
  (hship : ∀ c, analysis m st = .ok c → ShippedReporters m v shippedInfo clock plug c)

omit [DecidableEq κ] in
include h in
theorem limits_shipped : ∀ rule ∈ runningRules m st, IsShipped rule := by
  intro rule hrule
  rw [h.running] at hrule
  obtain ⟨q, -, rfl⟩ := List.mem_map.1 hrule
  exact (C106_classes q).2.2.2

include hst hload hr hw h hn hship

/-- The Xcode report of a run of rules with limits reads back as exactly the constructs that are too
large and not silenced, if the names of the files have no colons or newlines. -/
theorem C107_limits_xcode (hp : st.argReportType.value = "xcode".toList)
    (hpath : ∀ u ∈ rs.filterMap unitOf, ∀ n, ':' ∉ (u.locOf n).filename ∧ '\n' ∉ (u.locOf n).filename) :
    ∃ s ls, Delivered m v cli st s ∧ linesOf s = ls ++ [[]] ∧
      readAll (readViolationLine " warning: ".toList) ls =
        some (lineRecords shippedInfo (onceUnless st.argDuplications.value
          (limitReports apple rules found (rs.filterMap unitOf)))) := by
  have := C107_xcode m v cli st hst clock plug hload r hr hw apple body 0 someLines (foundBy found) rs
    bugs (limits_rulesRun h) (limits_shipped m st apple body rules sights limits found rs bugs h) hship hp
    (by
      intro w hw
      rw [limits_reports h] at hw
      obtain ⟨-, -, -, -, h5, u, hu, n, e⟩ := C107_limit_messages apple rules sights limits found _
        h.findings hn w hw
      rw [e]
      exact ⟨(hpath u hu n).1, (hpath u hu n).2, h5⟩)
  rwa [limits_reports h] at this

/-- The JSON report of such a run, without clang's static analyzer. -/
theorem C107_limits_json (hp : st.argReportType.value = "json".toList)
    (hpath : ∀ u ∈ rs.filterMap unitOf, ∀ n, JsonSafe (u.locOf n).filename)
    (hbugs : st.argClangChecker.value = false) :
    ∃ s, Delivered m v cli st s ∧
      readJson s = some (reportJson shippedInfo (toInt32 clock.now) (rs.filterMap unitOf).length
        (filesReported ((rs.filterMap unitOf).map fun u => limitReports apple rules found [u]))
        (onceUnless st.argDuplications.value
          (limitReports apple rules found (rs.filterMap unitOf))) []) := by
  have hb : bugs = [] := by
    obtain ⟨_, -, ⟨-, e⟩ | ⟨e, -⟩⟩ := h.compiled
    · exact e
    · rw [hbugs] at e; cases e
  subst hb
  have := C107_json m v cli st hst clock plug hload r hr hw apple body 0 someLines (foundBy found) rs
    [] (limits_rulesRun h) (limits_shipped m st apple body rules sights limits found rs [] h) hship hp
    (by
      intro w hw
      rw [limits_reports h] at hw
      obtain ⟨-, h2, -, -, -, u, hu, n, e⟩ := C107_limit_messages apple rules sights limits found _
        h.findings hn w hw
      rw [e]
      exact ⟨hpath u hu n, h2⟩)
    (by simp)
  rw [limits_reports h] at this
  have hunit : ∀ u, (runningRules m st).flatMap (reportsOf apple 0 someLines (foundBy found) body u) =
      limitReports apple rules found [u] := by
    intro u
    rw [← limits_reports h [u]]
    unfold allReports
    rw [List.flatMap_singleton]
  have hnone : toldDiagnostics st (fun _ => true) ([] : List (CompileResult TreeUnit)) = [] := by
    unfold toldDiagnostics onceUnless entriesOf
    simp [firsts]
  simp only [hunit, hnone] at this
  exact this

end Limits

/-! ## A concrete case -/

/-- The settings of the two limits. -/
def exLimitSettings : Configurations :=
  some [("TOO_MANY_PARAMETERS".toList, "3".toList), ("LONG_VARIABLE_NAME".toList, "2".toList)]

/-- The machine of C106 with a reporter for Xcode. -/
def exXcodeMachine : Machine TreeUnit (RuleId → RuleMemory Int) Nat :=
  { exLimitMachine exLimitSettings with
    reporterLibrary := fun _ => some (some "xcode".toList)
    report := fun _ a => (ReporterPlugin.xcode.report shippedInfo ⟨7, none, []⟩
      ⟨ResultCollector.empty, a⟩).bind fun _ => .ok () }

def exXcodeVoices : Voices TreeUnit where
  parserError := []
  configErrors := []
  dlerror := fun _ => []
  mainFile := fun u => u.source.mainPath
  text := fun _ a => exText (ReporterPlugin.xcode.report shippedInfo ⟨7, none, []⟩
      ⟨ResultCollector.empty, a⟩)

/-- Two findings in each of two files, one more is silenced by a comment; all on the screen, and one
finding more than allowed. -/
example : mainConsole exXcodeMachine exXcodeVoices
    (some { ruleConfiguration := ["TOO_MANY_PARAMETERS=3".toList, "LONG_VARIABLE_NAME=2".toList],
            reportType := some "xcode".toList, maxP3 := some 3 }) =
      .ok (⟨("a.c:1:1: warning: too many parameters [size|P3] Method with 4 parameters exceeds limit of 3\n".toList ++
        "a.c:3:1: warning: long variable name [naming|P3] Length of variable name `abc` is 3, which is longer than the threshold of 2\n".toList ++
        "b.c:1:1: warning: too many parameters [size|P3] Method with 4 parameters exceeds limit of 3\n".toList ++
        "b.c:3:1: warning: long variable name [naming|P3] Length of variable name `abc` is 3, which is longer than the threshold of 2\n".toList),
        "\noclint: error: violations exceed threshold\nP1=0[0] P2=0[10] P3=4[3] \n".toList, [], []⟩, .VIOLATIONS_EXCEED_THRESHOLD) := by decide +kernel

/-- What the summary counts: two files. -/
example : filesReported [[⟨some 1, "a.c".toList, 1, 1, 1, 1, []⟩, ⟨some 1, "h.h".toList, 1, 1, 1, 1, []⟩], [],
    [⟨some 1, "b.c".toList, 1, 1, 1, 1, []⟩]] = 2 := by decide +kernel

end Oclint
