import Verif.Spec.ReportRun
import Verif.Props.Console
import Verif.Props.LongLineRun
import Verif.Props.Catalogue
import Verif.Props.ReportText
import Verif.Props.ReportJson
import Verif.Props.ReportXml
import Verif.Props.ReportPmd
import Verif.Props.ReportLimits

/-!
# From the command line to the report (C102)
-/

namespace Oclint
open Spec

variable {U σ κ : Type}

/-- Each type of report has one reporter. -/
theorem typeName_inj : ∀ p q : ReporterPlugin, p.typeName = q.typeName → p = q := by
  intro p q h
  have key : ∀ p ∈ [ReporterPlugin.html, .json, .pmd, .text, .xcode, .xml],
      ∀ q ∈ [ReporterPlugin.html, .json, .pmd, .text, .xcode, .xml],
        p.typeName = q.typeName → p = q := by decide +kernel
  refine key p ?_ q ?_ h
  · clear key h; cases p <;> decide
  · clear key h; cases q <;> decide

theorem analysis_ruled (m : Machine U σ κ) (st : OptionState) (c : ResultCollector)
    (h : analysis m st = .ok c) : ∀ v ∈ answers st c .violations, v.rule ≠ none := by
  unfold analysis at h
  cases hd : driverRun m.toolchain m.mainExecutable st.argGlobalAnalysis.value
      st.argClangChecker.value ⟨runningRules m st, m.takeoff⟩
      ⟨m.env.cwd, ResultCollector.empty, m.initialRules⟩ m.db m.sources with
  | ub => rw [hd] at h; cases h
  | throws w => rw [hd] at h; cases h
  | ok ds =>
    rw [hd] at h
    cases h
    exact answers_ruled st ds.collector (driverRun_ruled hd allRuled_empty)

/-- If nothing goes wrong before the report is written and its reporter is defined on the results, the
report is exactly where it belongs. -/
theorem C102_delivered [DecidableEq κ] (m : Machine U σ κ) (v : Voices U) (cli : CommandLine)
    (st : OptionState) (hst : processOptions m.env cli = .ok st) (info : RuleId → RuleInfo)
    (clock : Clock) (plug : Str → ReporterPlugin) (c : ResultCollector) (p : ReporterPlugin)
    (hload : RulesLoad m st) (r : Str) (hr : ReporterAt m st r) (hc : analysis m st = .ok c)
    (hship : ShippedReporters m v info clock plug c) (hp : st.argReportType.value = p.typeName)
    (hw : CanWrite m st) (s : Str) (hs : p.report info clock ⟨c, answers st c⟩ = .ok s) :
    Delivered m v cli st s := by
  have hplug : plug r = p := by
    obtain ⟨_, _, _, _, h⟩ := hr
    exact typeName_inj _ _ ((hship.named r _ h).symm.trans hp)
  obtain ⟨hrep, htext⟩ := hship.writes r (answers st c) s (by rw [hplug]; exact hs)
  obtain ⟨log, hlog⟩ := (analysed_iff m v st cli.verbose c).2 hc
  obtain ⟨out, files, hplaced⟩ : ∃ out files, Placed m st cli.listEnabledRules s out files := by
    rcases hw with h | ⟨f, h1, h2⟩
    · exact ⟨_, _, .screen h⟩
    · by_cases h : st.argOutput.value = "-".toList
      · exact ⟨_, _, .screen h⟩
      · exact ⟨_, _, .file f h h1 h2⟩
  have hpl : Placed m st cli.listEnabledRules (v.text r (answers st c)) out files := by
    rw [htext]; exact hplaced
  by_cases he : rawAll c .errors = []
  · by_cases hl : WithinLimits m st (answers st c .violations)
    · have := (C89_console m v cli st hst .SUCCESS _).2
        (.success r out log files c hload hr hlog hrep hpl he hl)
      exact ⟨_, _, this, .inl rfl, hplaced⟩
    · have := (C89_console m v cli st hst .VIOLATIONS_EXCEED_THRESHOLD _).2
        (.threshold r out log files c hload hr hlog hrep hpl he hl)
      exact ⟨_, _, this, .inr (.inl rfl), hplaced⟩
  · have := (C89_console m v cli st hst .COMPILATION_ERRORS _).2
      (.errors r out log files c hload hr hlog hrep hpl he)
    exact ⟨_, _, this, .inr (.inr rfl), hplaced⟩

/-! ### The shipped reporters never throw -/

/-- The program does not throw. -/
def Calm {α : Type} (x : Outcome α) : Prop := (∃ s, x = .ok s) ∨ x = .ub

theorem calm_pure {α : Type} (a : α) : Calm (pure a : Outcome α) := .inl ⟨a, rfl⟩

theorem calm_bind {α β : Type} {x : Outcome α} {f : α → Outcome β} (hx : Calm x)
    (hf : ∀ a, Calm (f a)) : Calm (x >>= f) := by
  rcases hx with ⟨s, rfl⟩ | rfl
  · exact hf s
  · exact .inr rfl

theorem calm_writeEach {f : Violation → Outcome Str} (hf : ∀ v, Calm (f v)) (vs : List Violation) :
    Calm (writeEach f vs) := by
  induction vs with
  | nil => exact .inl ⟨_, rfl⟩
  | cons v vs ih =>
    unfold writeEach
    exact calm_bind (hf v) fun _ => calm_bind ih fun _ => calm_pure _

theorem calm_rule (info : RuleId → RuleInfo) (v : Violation) : Calm (derefRule info v) := by
  unfold derefRule
  cases v.rule with
  | none => exact .inr rfl
  | some r => exact .inl ⟨_, rfl⟩

theorem calm_check (z : Int) : Calm (checkInt32 z) := by
  unfold checkInt32
  split
  · exact .inl ⟨_, rfl⟩
  · exact .inr rfl

theorem calm_total (info : RuleId → RuleInfo) (w : ResultsView) (p : Int) :
    Calm (priorityTotal info w p) := by
  by_cases h : ∃ v ∈ w.answer .violations, v.rule = none
  · exact .inr (priorityTotal_ub info w p h)
  · exact .inl ⟨_, priorityTotal_ok info w p fun v hv e => h ⟨v, hv, e⟩⟩

theorem plugin_calm (info : RuleId → RuleInfo) (clock : Clock) (p : ReporterPlugin) (w : ResultsView) :
    (∃ s, p.report info clock w = .ok s) ∨ p.report info clock w = .ub := by
  show Calm _
  have t := fun p => calm_total info w p
  cases p with
  | html =>
    refine calm_bind (calm_bind (t 1) fun _ => calm_bind (t 2) fun _ => calm_bind (t 3) fun _ =>
      calm_pure _) fun _ => calm_bind (calm_bind (calm_writeEach (fun v => ?_) _) fun _ => calm_pure _)
        fun _ => calm_pure _
    exact calm_bind (calm_rule info v) fun _ => calm_pure _
  | json =>
    exact calm_bind (calm_bind (calm_bind (t 1) fun _ => calm_pure _) fun _ =>
      calm_bind (calm_bind (t 2) fun _ => calm_pure _) fun _ =>
      calm_bind (calm_bind (t 3) fun _ => calm_pure _) fun _ => calm_pure _) fun _ => calm_pure _
  | pmd =>
    refine calm_bind (calm_writeEach (fun v => .inl ⟨_, rfl⟩) _) fun _ =>
      calm_bind (calm_writeEach (fun v => .inl ⟨_, rfl⟩) _) fun _ =>
      calm_bind (calm_writeEach (fun v => calm_bind ?_ fun _ => calm_pure _) _) fun _ =>
      calm_bind (calm_writeEach (fun v => .inl ⟨_, rfl⟩) _) fun _ => calm_pure _
    unfold pmdViolation
    cases v.rule with
    | none => exact .inl ⟨_, rfl⟩
    | some r =>
      exact calm_bind (calm_bind (calm_check _) fun _ => calm_bind (calm_check _) fun _ => calm_pure _)
        fun _ => calm_pure _
  | text =>
    exact calm_bind (calm_bind (t 1) fun _ => calm_bind (t 2) fun _ => calm_bind (t 3) fun _ =>
      calm_pure _) fun _ => calm_bind (calm_writeEach (fun v => calm_bind
        (calm_bind (calm_rule info v) fun _ => calm_pure _) fun _ => calm_pure _) _) fun _ => calm_pure _
  | xcode =>
    exact calm_writeEach (fun v => calm_bind
        (calm_bind (calm_rule info v) fun _ => calm_pure _) fun _ => calm_pure _) _
  | xml =>
    refine calm_bind ?_ fun _ => calm_bind (calm_bind (t 1) fun _ => calm_bind (t 2) fun _ =>
      calm_bind (t 3) fun _ => calm_pure _) fun _ => calm_pure _
    show Calm (xmlDatetime clock.utc)
    unfold xmlDatetime
    cases clock.utc with
    | none => exact .inr rfl
    | some tm => exact calm_bind (calm_check _) fun _ => calm_pure _

/-- Conversely, a run that ends with exit code 0, 5 or 6 has written the report of its results. -/
theorem C102_only [DecidableEq κ] (m : Machine U σ κ) (v : Voices U) (cli : CommandLine)
    (st : OptionState) (hst : processOptions m.env cli = .ok st) (info : RuleId → RuleInfo)
    (clock : Clock) (plug : Str → ReporterPlugin) (p : ReporterPlugin)
    (hship : ∀ c, analysis m st = .ok c → ShippedReporters m v info clock plug c)
    (hp : st.argReportType.value = p.typeName) (k : Console) (code : ExitCode)
    (h : mainConsole m v (some cli) = .ok (k, code))
    (hcode : code.toNat = 0 ∨ code.toNat = 5 ∨ code.toNat = 6) :
    ∃ c s, analysis m st = .ok c ∧ p.report info clock ⟨c, answers st c⟩ = .ok s ∧
      Placed m st cli.listEnabledRules s k.out k.files := by
  have h := (C89_console m v cli st hst code k).1 h
  have key : ∀ {r out log : Str} {files : List (Str × Str)} {c : ResultCollector},
      ReporterAt m st r → Analysed m v st cli.verbose c log → m.report r (answers st c) = .ok () →
      Placed m st cli.listEnabledRules (v.text r (answers st c)) out files →
      ∃ c s, analysis m st = .ok c ∧ p.report info clock ⟨c, answers st c⟩ = .ok s ∧
        Placed m st cli.listEnabledRules s out files := by
    intro r out log files c hr ha hrep hpl
    have hc := (analysed_iff m v st cli.verbose c).1 ⟨log, ha⟩
    have hs := hship c hc
    have hplug : plug r = p := by
      obtain ⟨_, _, _, _, h⟩ := hr
      exact typeName_inj _ _ ((hs.named r _ h).symm.trans hp)
    rcases plugin_calm info clock p ⟨c, answers st c⟩ with ⟨s, h⟩ | h
    · have := (hs.writes r (answers st c) s (by rw [hplug]; exact h)).2
      rw [this] at hpl
      exact ⟨c, s, hc, h, hpl⟩
    · have := hs.undefined r (answers st c) (by rw [hplug]; exact h)
      rw [this] at hrep
      cases hrep
  generalize code.toNat = n at h hcode
  cases h with
  | errors r _ log _ c hl hr ha hp1 hp' he => exact key hr ha hp1 hp'
  | threshold r _ log _ c hl hr ha hp1 hp' he hw => exact key hr ha hp1 hp'
  | success r _ log _ c hl hr ha hp1 hp' he hw => exact key hr ha hp1 hp'
  | _ => omega

/-! ## Reading the report of a run -/

section Reading
variable [DecidableEq κ] (m : Machine U σ κ) (v : Voices U) (cli : CommandLine)
  (st : OptionState) (hst : processOptions m.env cli = .ok st) (info : RuleId → RuleInfo)
  (clock : Clock) (plug : Str → ReporterPlugin) (c : ResultCollector)
  (hload : RulesLoad m st) (r : Str) (hr : ReporterAt m st r) (hc : analysis m st = .ok c)
  (hship : ShippedReporters m v info clock plug c) (hw : CanWrite m st)

include hst hload hr hc hship hw

/-- `-report-type json`: the report reads back as the results. -/
theorem C102_json (hp : st.argReportType.value = "json".toList)
    (hv : ∀ v ∈ answers st c .violations, JsonClean info v)
    (hb : ∀ v ∈ answers st c .checkerBugs, JsonClean info v) :
    ∃ s, Delivered m v cli st s ∧
      readJson s = some (reportJson info (toInt32 clock.now) (numberOfFiles c)
        (numberOfFilesWithViolations c) (answers st c .violations) (answers st c .checkerBugs)) := by
  obtain ⟨s, h1, h2⟩ := C55_json_reads_back_partial info clock.now ⟨c, answers st c⟩
    (analysis_ruled m st c hc) hv hb
  exact ⟨s, C102_delivered m v cli st hst info clock plug c .json hload r hr hc hship hp hw s h1, h2⟩

/-- `-report-type xml`. -/
theorem C102_xml (hp : st.argReportType.value = "xml".toList) (tm : Tm) (ht : clock.utc = some tm)
    (hyear : IsInt32 (tm.year + 1900))
    (hv : ∀ v ∈ answers st c .violations, XmlClean info v)
    (hb : ∀ v ∈ answers st c .checkerBugs, XmlClean info v) :
    ∃ s dt, Delivered m v cli st s ∧
      xmlDatetime (some tm) = .ok ("<datetime>".toList ++ dt ++ "</datetime>".toList) ∧
      readXml s = some (reportXml info dt (numberOfFiles c) (numberOfFilesWithViolations c)
        (answers st c .violations) (answers st c .checkerBugs)) := by
  obtain ⟨s, dt, h1, h2, h3⟩ := C55_xml_reads_back_partial info tm ⟨c, answers st c⟩ hyear
    (analysis_ruled m st c hc) hv hb
  refine ⟨s, dt, C102_delivered m v cli st hst info clock plug c .xml hload r hr hc hship hp hw s ?_,
    h2, h3⟩
  show xmlReport info clock.utc _ = _
  rw [ht]
  exact h1

/-- `-report-type pmd`. -/
theorem C102_pmd (hp : st.argReportType.value = "pmd".toList)
    (hprio : ∀ v ∈ answers st c .violations, PmdPriority info v)
    (hv : ∀ ch, ∀ v ∈ answers st c ch, PmdClean info v) :
    ∃ s, Delivered m v cli st s ∧
      readXml s = some (reportPmd info (answers st c .errors) (answers st c .warnings)
        (answers st c .violations) (answers st c .checkerBugs)) := by
  obtain ⟨s, h1, h2⟩ := C55_pmd_reads_back_partial info ⟨c, answers st c⟩ hprio (hv _)
    (fun ch _ v hm => ⟨(hv ch v hm).1, (hv ch v hm).2.1⟩)
  exact ⟨s, C102_delivered m v cli st hst info clock plug c .pmd hload r hr hc hship hp hw s h1, h2⟩

/-- `-report-type xcode`. -/
theorem C102_xcode (hp : st.argReportType.value = "xcode".toList)
    (hv : ∀ v ∈ answers st c .violations, LineClean info v) :
    ∃ s ls, Delivered m v cli st s ∧ linesOf s = ls ++ [[]] ∧
      readAll (readViolationLine " warning: ".toList) ls =
        some (lineRecords info (answers st c .violations)) := by
  obtain ⟨s, ls, h1, h2, h3⟩ := C55_xcode_reads_back_partial info ⟨c, answers st c⟩ hv
  exact ⟨s, ls, C102_delivered m v cli st hst info clock plug c .xcode hload r hr hc hship hp hw s h1,
    h2, h3⟩

/-- `-report-type text`, the usual one. -/
theorem C102_text (hp : st.argReportType.value = "text".toList)
    (hv : ∀ v ∈ answers st c .violations, LineClean info v)
    (hd : ∀ ch, ch ≠ .violations → ∀ v ∈ answers st c ch, DiagClean v) :
    ∃ s, Delivered m v cli st s ∧ readText s = some
      { errors := (answers st c .errors).map diagRecord
        warnings := (answers st c .warnings).map diagRecord
        bugs := (answers st c .checkerBugs).map diagRecord
        files := numberOfFiles c
        filesWithViolations := numberOfFilesWithViolations c
        p1 := countWithPriority (fun r => (info r).priority) 1 (answers st c .violations)
        p2 := countWithPriority (fun r => (info r).priority) 2 (answers st c .violations)
        p3 := countWithPriority (fun r => (info r).priority) 3 (answers st c .violations)
        violations := lineRecords info (answers st c .violations) } := by
  obtain ⟨s, h1, h2⟩ := C55_text_reads_back_partial info ⟨c, answers st c⟩ hv hd
  exact ⟨s, C102_delivered m v cli st hst info clock plug c .text hload r hr hc hship hp hw s h1, h2⟩

/-- `-report-type html`. -/
theorem C102_html (hp : st.argReportType.value = "html".toList)
    (hv : ∀ ch, ∀ v ∈ answers st c ch, HtmlClean info v) :
    ∃ summary details rows,
      Delivered m v cli st ("<!DOCTYPE html><html>".toList ++ htmlHead
        ++ "<body><h1>OCLint Report</h1><h2>Summary</h2>".toList ++ summary
        ++ "<h2>Details</h2>".toList ++ details ++ rows
        ++ "</tbody></table><hr /><p>".toList ++ clock.text
        ++ "| Generated with <a href='https://oclint.org'>OCLint v24.11</a>.</p></body></html>\n".toList) ∧
      scanXml summary = some (summaryHtml (numberOfFiles c) (numberOfFilesWithViolations c)
        (countWithPriority (fun r => (info r).priority) 1 (answers st c .violations))
        (countWithPriority (fun r => (info r).priority) 2 (answers st c .violations))
        (countWithPriority (fun r => (info r).priority) 3 (answers st c .violations))
        (answers st c .errors).length (answers st c .warnings).length
        (answers st c .checkerBugs).length) ∧
      scanXml details = some detailsHtml ∧
      scanXml rows = some (rowsHtml info (answers st c .errors) (answers st c .warnings)
        (answers st c .violations) (answers st c .checkerBugs)) := by
  obtain ⟨x, y, z, h1, h2, h3, h4⟩ := C55_html_reads_back_partial info clock.text ⟨c, answers st c⟩
    (analysis_ruled m st c hc) (hv _) (fun ch _ v hm => ⟨(hv ch v hm).1, (hv ch v hm).2.1⟩)
  exact ⟨x, y, z, C102_delivered m v cli st hst info clock plug c .html hload r hr hc hship hp hw _ h1,
    h2, h3, h4⟩

end Reading

/-! ## A report about long lines -/

/-- The characters of the messages about long lines. -/
def WordChar (c : Char) : Prop := c.isAlpha = true ∨ c.isDigit = true ∨ c = ' ' ∨ c = '-'

theorem wordChar_toNat {c : Char} (h : WordChar c) :
    c.toNat = 32 ∨ c.toNat = 45 ∨ 48 ≤ c.toNat ∧ c.toNat ≤ 57 ∨ 65 ≤ c.toNat ∧ c.toNat ≤ 90 ∨
      97 ≤ c.toNat ∧ c.toNat ≤ 122 := by
  rcases h with h | h | rfl | rfl
  · simp only [Char.isAlpha, Char.isUpper, Char.isLower, Bool.or_eq_true, Bool.and_eq_true,
      decide_eq_true_eq, UInt32.le_iff_toNat_le] at h
    rcases h with h | h
    · have h1 := h.1; have h2 := h.2
      simp at h1 h2
      omega
    · have h1 := h.1; have h2 := h.2
      simp at h1 h2
      omega
  · simp only [Char.isDigit, Bool.and_eq_true, decide_eq_true_eq, UInt32.le_iff_toNat_le]
      at h
    have h1 := h.1; have h2 := h.2
    simp at h1 h2
    omega
  · decide
  · decide

theorem wordChar_safe {c : Char} (h : WordChar c) :
    c ≠ '"' ∧ c ≠ '\\' ∧ c ≠ '<' ∧ c ≠ '&' ∧ c ≠ '\n' ∧ 32 ≤ c.toNat ∧ xmlChar c = true := by
  have hn := wordChar_toNat h
  refine ⟨?_, ?_, ?_, ?_, ?_, ?_, ?_⟩
  iterate 5
    rintro rfl
    revert hn
    decide
  · omega
  · have : 32 ≤ c.toNat := by omega
    simp [xmlChar, this]

theorem longLine_message (rule : RuleId) (path : Str) (t : Int) (n : Nat) (line : Str) :
    ∀ c ∈ (longLine rule path t n line).message, WordChar c := by
  intro c hc
  have d : ∀ k, ∀ c ∈ decimal k, WordChar c := fun k c hc => .inr (.inl (decimal_all_digits k c hc))
  have l1 : ∀ c ∈ "Line with ".toList, WordChar c := by unfold WordChar; decide +kernel
  have l2 : ∀ c ∈ " characters exceeds limit of ".toList, WordChar c := by
    unfold WordChar; decide +kernel
  unfold longLine at hc
  simp only [List.mem_append] at hc
  rcases hc with ((hc | hc) | hc) | hc
  · exact l1 c hc
  · exact d _ c hc
  · exact l2 c hc
  · unfold decimalInt at hc
    split at hc
    · rcases List.mem_cons.1 hc with h | h
      · exact .inr (.inr (.inr h))
      · exact d _ c h
    · exact d _ c hc

theorem files_eq (us : List SourceUnit) (f : SourceUnit → List Violation)
    (hf : ∀ u ∈ us, ∀ v ∈ f u, v.path = u.mainPath)
    (hd : us.Pairwise fun u v => u.mainPath ≠ v.mainPath) (c : ResultCollector)
    (hc : c.collection = us.map f) :
    numberOfFiles c = us.length ∧
      numberOfFilesWithViolations c = (us.filter fun u => decide (f u ≠ [])).length := by
  constructor
  · unfold numberOfFiles
    rw [hc, List.length_map]
  · rw [numberOfFilesWithViolations_eq, hc]
    have key : headPaths (us.map f) = (us.filter fun u => decide (f u ≠ [])).map (·.mainPath) := by
      clear hd hc
      induction us with
      | nil => rfl
      | cons u us ih =>
        have ih := ih fun w hw => hf w (by simp [hw])
        unfold headPaths at ih ⊢
        rw [List.map_cons, List.filterMap_cons]
        cases h : f u with
        | nil =>
          rw [List.filter_cons_of_neg (by simp [h])]
          exact ih
        | cons v vs =>
          rw [List.filter_cons_of_pos (by simp [h]), List.map_cons, ← ih,
            ← hf u (by simp) v (by rw [h]; simp)]
          rfl
    rw [key, List.toFinset_card_of_nodup, List.length_map]
    exact List.Pairwise.map _ (fun _ _ h => h) (hd.filter _)

section LongLines
variable [DecidableEq κ] (m : Machine SourceUnit SuppressCache κ) (v : Voices SourceUnit)
  (cli : CommandLine) (st : OptionState) (hst : processOptions m.env cli = .ok st) (clock : Clock)
  (plug : Str → ReporterPlugin) (hload : RulesLoad m st) (r : Str) (hr : ReporterAt m st r)
  (hw : CanWrite m st) (apple : Bool) (rule : RuleId) (t : Int)
  (rs : List (CompileResult SourceUnit)) (lines : SourceUnit → List Str)
  (h : LongLinesOnly m st apple rule t rs lines) (hrule : IsShipped rule)
  (hship : ∀ c, analysis m st = .ok c → ShippedReporters m v shippedInfo clock plug c)

omit [DecidableEq κ] in
include h in
/-- What the reporters are told by a run of the long line rule alone. -/
theorem C102_long_lines : ∃ c, analysis m st = .ok c ∧
    answers st c .violations = allLongLines apple rule t lines (rs.filterMap unitOf) ∧
    answers st c .checkerBugs = [] ∧ numberOfFiles c = (rs.filterMap unitOf).length ∧
    numberOfFilesWithViolations c = filesWithLongLines apple rule t lines (rs.filterMap unitOf) ∧
    (∀ w ∈ answers st c .errors ++ answers st c .warnings,
      ∃ x ∈ rs, ∃ d ∈ x.diagnostics, w = diagnosticEntry d) := by
  obtain ⟨c, hc, hv, -⟩ := C100_findings m st apple rule t rs lines h
  have hcol := longLines_collected m st apple rule t rs lines h
  rw [hc] at hcol
  have hceq := Outcome.ok.inj hcol
  have hf := files_eq (rs.filterMap unitOf) (fun u => tooLongLines apple rule t u (lines u))
    (by
      intro u _ w hw
      obtain ⟨_, _, -, -, rfl⟩ := (mem_tooLongLines _ _ _ _ _ _).1 hw
      rfl) h.distinct c (by rw [hceq]; rfl)
  have hfirst : ∀ ch, ∀ w ∈ answers st c ch, w ∈ rawAll c ch := by
    intro ch w hw
    unfold answers at hw
    split at hw
    · exact hw
    · exact (mem_firsts _ _).1 hw
  refine ⟨c, hc, hv, ?_, hf.1, hf.2, ?_⟩
  · rw [hceq]
    unfold answers rawAll collected entriesOf
    simp [ResultCollector.empty, firsts]
  · intro w hw
    have hraw : w ∈ rawAll c .errors ++ rawAll c .warnings := by
      rcases List.mem_append.1 hw with h | h
      · exact List.mem_append.2 (.inl (hfirst _ _ h))
      · exact List.mem_append.2 (.inr (hfirst _ _ h))
    rw [hceq] at hraw
    unfold rawAll collected entriesOf at hraw
    simp only [ResultCollector.empty, List.nil_append, List.mem_append, List.mem_map, List.mem_filter,
      List.mem_flatMap] at hraw
    rcases hraw with ⟨d, ⟨⟨x, hx, hd⟩, -⟩, rfl⟩ | ⟨d, ⟨⟨x, hx, hd⟩, -⟩, rfl⟩
    · exact ⟨x, hx, d, hd, rfl⟩
    · exact ⟨x, hx, d, hd, rfl⟩

theorem mem_allLongLines {us : List SourceUnit} {w : Violation}
    (hw : w ∈ allLongLines apple rule t lines us) :
    ∃ u ∈ us, w.path = u.mainPath ∧ w.rule = some rule ∧ ∀ ch ∈ w.message, WordChar ch := by
  obtain ⟨u, hu, hw⟩ := List.mem_flatMap.1 hw
  obtain ⟨_, _, -, -, rfl⟩ := (mem_tooLongLines _ _ _ _ _ _).1 hw
  exact ⟨u, hu, rfl, rfl, longLine_message _ _ _ _ _⟩

include hst hload hr hw h hrule hship

/-- A JSON report of a run of the long line rule reads back as exactly the lines that are too long, if
the names of the files have no quotes, backslashes or control characters. -/
theorem C102_long_lines_json (hp : st.argReportType.value = "json".toList)
    (hpath : ∀ u ∈ rs.filterMap unitOf, JsonSafe u.mainPath) :
    ∃ s, Delivered m v cli st s ∧
      readJson s = some (reportJson shippedInfo (toInt32 clock.now) (rs.filterMap unitOf).length
        (filesWithLongLines apple rule t lines (rs.filterMap unitOf))
        (allLongLines apple rule t lines (rs.filterMap unitOf)) []) := by
  obtain ⟨c, hc, h1, h2, h3, h4, -⟩ := C102_long_lines m st apple rule t rs lines h
  have := C102_json m v cli st hst shippedInfo clock plug c hload r hr hc (hship c hc) hw hp
    (by
      intro w hw
      rw [h1] at hw
      obtain ⟨u, hu, e, er, hm⟩ := mem_allLongLines apple rule t lines hw
      refine ((C94_reports w rule er hrule).2.1).2 ⟨by rw [e]; exact hpath u hu, fun ch hch => ?_⟩
      have := wordChar_safe (hm ch hch)
      exact ⟨this.1, this.2.1, this.2.2.2.2.2.1⟩)
    (by rw [h2]; simp)
  rw [h1, h2, h3, h4] at this
  exact this

/-- The same for XML; the names of the files have no `<`, `&`, double quotes or control characters. -/
theorem C102_long_lines_xml (hp : st.argReportType.value = "xml".toList)
    (tm : Tm) (ht : clock.utc = some tm) (hyear : IsInt32 (tm.year + 1900))
    (hpath : ∀ u ∈ rs.filterMap unitOf, XmlSafe u.mainPath) :
    ∃ s dt, Delivered m v cli st s ∧
      xmlDatetime (some tm) = .ok ("<datetime>".toList ++ dt ++ "</datetime>".toList) ∧
      readXml s = some (reportXml shippedInfo dt (rs.filterMap unitOf).length
        (filesWithLongLines apple rule t lines (rs.filterMap unitOf))
        (allLongLines apple rule t lines (rs.filterMap unitOf)) []) := by
  obtain ⟨c, hc, h1, h2, h3, h4, -⟩ := C102_long_lines m st apple rule t rs lines h
  have := C102_xml m v cli st hst shippedInfo clock plug c hload r hr hc (hship c hc) hw hp tm ht hyear
    (by
      intro w hw
      rw [h1] at hw
      obtain ⟨u, hu, e, er, hm⟩ := mem_allLongLines apple rule t lines hw
      refine ((C94_reports w rule er hrule).2.2.1).2 ⟨by rw [e]; exact hpath u hu, fun ch hch => ?_⟩
      have := wordChar_safe (hm ch hch)
      exact ⟨this.2.2.1, this.2.2.2.1, this.1, this.2.2.2.2.2.1⟩)
    (by rw [h2]; simp)
  rw [h1, h2, h3, h4] at this
  exact this

/-- The same for PMD; also the messages of the compiler have no control characters. -/
theorem C102_long_lines_pmd (hp : st.argReportType.value = "pmd".toList)
    (hpath : ∀ u ∈ rs.filterMap unitOf, XmlSafe u.mainPath)
    (hdiag : ∀ x ∈ rs, ∀ d ∈ x.diagnostics, PmdClean shippedInfo (diagnosticEntry d)) :
    ∃ c s, analysis m st = .ok c ∧ Delivered m v cli st s ∧
      readXml s = some (reportPmd shippedInfo (answers st c .errors) (answers st c .warnings)
        (allLongLines apple rule t lines (rs.filterMap unitOf)) []) := by
  obtain ⟨c, hc, h1, h2, -, -, h5⟩ := C102_long_lines m st apple rule t rs lines h
  have hclean : ∀ w ∈ answers st c .violations, PmdPriority shippedInfo w ∧ PmdClean shippedInfo w := by
    intro w hw
    rw [h1] at hw
    obtain ⟨u, hu, e, er, hm⟩ := mem_allLongLines apple rule t lines hw
    refine ⟨(C94_reports w rule er hrule).2.2.2.2.2, ((C94_reports w rule er hrule).2.2.2.1).2
      ⟨by rw [e]; exact hpath u hu, List.all_eq_true.2 fun ch hch => ?_⟩⟩
    exact (wordChar_safe (hm ch hch)).2.2.2.2.2.2
  have := C102_pmd m v cli st hst shippedInfo clock plug c hload r hr hc (hship c hc) hw hp
    (fun w hw => (hclean w hw).1)
    (by
      intro ch w hw
      cases ch with
      | violations => exact (hclean w hw).2
      | checkerBugs => rw [h2] at hw; simp at hw
      | errors =>
        obtain ⟨x, hx, d, hd, rfl⟩ := h5 w (by simp [hw])
        exact hdiag x hx d hd
      | warnings =>
        obtain ⟨x, hx, d, hd, rfl⟩ := h5 w (by simp [hw])
        exact hdiag x hx d hd)
  rw [h1, h2] at this
  exact ⟨c, this.choose, hc, this.choose_spec⟩

/-- The same for Xcode; the names of the files have no colons or newlines. -/
theorem C102_long_lines_xcode (hp : st.argReportType.value = "xcode".toList)
    (hpath : ∀ u ∈ rs.filterMap unitOf, ':' ∉ u.mainPath ∧ '\n' ∉ u.mainPath) :
    ∃ s ls, Delivered m v cli st s ∧ linesOf s = ls ++ [[]] ∧
      readAll (readViolationLine " warning: ".toList) ls =
        some (lineRecords shippedInfo (allLongLines apple rule t lines (rs.filterMap unitOf))) := by
  obtain ⟨c, hc, h1, -⟩ := C102_long_lines m st apple rule t rs lines h
  have := C102_xcode m v cli st hst shippedInfo clock plug c hload r hr hc (hship c hc) hw hp
    (by
      intro w hw
      rw [h1] at hw
      obtain ⟨u, hu, e, er, hm⟩ := mem_allLongLines apple rule t lines hw
      refine ((C94_reports w rule er hrule).1).2 ⟨by rw [e]; exact (hpath u hu).1,
        by rw [e]; exact (hpath u hu).2, fun hn => ?_⟩
      exact (wordChar_safe (hm _ hn)).2.2.2.2.1 rfl)
  rw [h1] at this
  exact this

/-- The same for text; also the places of the diagnostics have no colons and their messages no
newlines. -/
theorem C102_long_lines_text (hp : st.argReportType.value = "text".toList)
    (hpath : ∀ u ∈ rs.filterMap unitOf, ':' ∉ u.mainPath ∧ '\n' ∉ u.mainPath)
    (hdiag : ∀ x ∈ rs, ∀ d ∈ x.diagnostics, DiagClean (diagnosticEntry d))
    (hprio : (shippedInfo rule).priority = 3) :
    ∃ c s, analysis m st = .ok c ∧ Delivered m v cli st s ∧ readText s = some
      { errors := (answers st c .errors).map diagRecord
        warnings := (answers st c .warnings).map diagRecord
        bugs := []
        files := (rs.filterMap unitOf).length
        filesWithViolations := filesWithLongLines apple rule t lines (rs.filterMap unitOf)
        p1 := 0
        p2 := 0
        p3 := (allLongLines apple rule t lines (rs.filterMap unitOf)).length
        violations := lineRecords shippedInfo
          (allLongLines apple rule t lines (rs.filterMap unitOf)) } := by
  obtain ⟨c, hc, h1, h2, h3, h4, h5⟩ := C102_long_lines m st apple rule t rs lines h
  have := C102_text m v cli st hst shippedInfo clock plug c hload r hr hc (hship c hc) hw hp
    (by
      intro w hw
      rw [h1] at hw
      obtain ⟨u, hu, e, er, hm⟩ := mem_allLongLines apple rule t lines hw
      refine ((C94_reports w rule er hrule).1).2 ⟨by rw [e]; exact (hpath u hu).1,
        by rw [e]; exact (hpath u hu).2, fun hn => ?_⟩
      exact (wordChar_safe (hm _ hn)).2.2.2.2.1 rfl)
    (by
      intro ch hch w hw
      cases ch with
      | violations => exact absurd rfl hch
      | checkerBugs => rw [h2] at hw; simp at hw
      | errors =>
        obtain ⟨x, hx, d, hd, rfl⟩ := h5 w (by simp [hw])
        exact hdiag x hx d hd
      | warnings =>
        obtain ⟨x, hx, d, hd, rfl⟩ := h5 w (by simp [hw])
        exact hdiag x hx d hd)
  rw [h1, h2, h3, h4] at this
  have hcount : ∀ p, countWithPriority (fun r => (shippedInfo r).priority) p
      (allLongLines apple rule t lines (rs.filterMap unitOf)) =
      if p = 3 then (allLongLines apple rule t lines (rs.filterMap unitOf)).length else 0 := by
    intro p
    unfold countWithPriority
    have hall : ∀ w ∈ allLongLines apple rule t lines (rs.filterMap unitOf),
        w.rule.map (fun r => (shippedInfo r).priority) = some 3 := by
      intro w hw
      obtain ⟨u, hu, e, er, hm⟩ := mem_allLongLines apple rule t lines hw
      rw [er, Option.map_some, hprio]
    split
    · rename_i hp
      rw [List.filter_eq_self.2]
      intro w hw
      rw [hall w hw, hp]
      simp
    · rename_i hp
      rw [List.filter_eq_nil_iff.2]
      · rfl
      · intro w hw
        rw [hall w hw]
        simp only [Option.some.injEq, decide_eq_true_eq]
        exact fun hh => hp hh.symm
  rw [hcount 1, hcount 2, hcount 3, if_neg (by decide), if_neg (by decide), if_pos rfl] at this
  exact ⟨c, this.choose, hc, this.choose_spec⟩

/-- The same for HTML: the details table has exactly the lines that are too long and the diagnostics of
the compiler. -/
theorem C102_long_lines_html (hp : st.argReportType.value = "html".toList)
    (hpath : ∀ u ∈ rs.filterMap unitOf, HtmlSafe u.mainPath)
    (hdiag : ∀ x ∈ rs, ∀ d ∈ x.diagnostics, HtmlClean shippedInfo (diagnosticEntry d)) :
    ∃ c before summary details rows after, analysis m st = .ok c ∧
      Delivered m v cli st (before ++ summary ++ "<h2>Details</h2>".toList ++ details ++ rows ++ after) ∧
      before = "<!DOCTYPE html><html>".toList ++ htmlHead
        ++ "<body><h1>OCLint Report</h1><h2>Summary</h2>".toList ∧
      after = "</tbody></table><hr /><p>".toList ++ clock.text
        ++ "| Generated with <a href='https://oclint.org'>OCLint v24.11</a>.</p></body></html>\n".toList ∧
      scanXml details = some detailsHtml ∧
      scanXml rows = some (rowsHtml shippedInfo (answers st c .errors) (answers st c .warnings)
        (allLongLines apple rule t lines (rs.filterMap unitOf)) []) := by
  obtain ⟨c, hc, h1, h2, -, -, h5⟩ := C102_long_lines m st apple rule t rs lines h
  have := C102_html m v cli st hst shippedInfo clock plug c hload r hr hc (hship c hc) hw hp
    (by
      intro ch w hw
      cases ch with
      | violations =>
        rw [h1] at hw
        obtain ⟨u, hu, e, er, hm⟩ := mem_allLongLines apple rule t lines hw
        refine ((C94_reports w rule er hrule).2.2.2.2.1).2 ⟨by rw [e]; exact hpath u hu, fun ch hch => ?_⟩
        have := wordChar_safe (hm ch hch)
        exact ⟨this.2.2.1, this.2.2.2.1, this.2.2.2.2.2.2⟩
      | checkerBugs => rw [h2] at hw; simp at hw
      | errors =>
        obtain ⟨x, hx, d, hd, rfl⟩ := h5 w (by simp [hw])
        exact hdiag x hx d hd
      | warnings =>
        obtain ⟨x, hx, d, hd, rfl⟩ := h5 w (by simp [hw])
        exact hdiag x hx d hd)
  obtain ⟨summary, details, rows, d1, -, d3, d4⟩ := this
  rw [h1, h2] at d4
  refine ⟨c, _, summary, details, rows, _, hc, ?_, rfl, rfl, d3, d4⟩
  simp only [List.append_assoc] at d1 ⊢
  exact d1

end LongLines

/-! ## A concrete run -/

/-- What the results hold for the two files of `exLongMachine`, each with a long line. -/
def exLongResults : ResultCollector :=
  { ResultCollector.empty with
    collection := [[longLine 4 "a.c".toList 2 1 "abc".toList], [longLine 4 "b.c".toList 2 2 "abc".toList]] }

/-- The long line rule, as it describes itself. -/
def exLongInfo : RuleId → RuleInfo := fun _ => ⟨"long line".toList, "size".toList, 3⟩

/-- The text of a report, if there is one. -/
def exText : Outcome Str → Str
  | .ok s => s
  | _ => []

/-- The two files, `/w/out` can be written and the reporter is the one for JSON. -/
def exJsonMachine : Machine SourceUnit SuppressCache Nat :=
  { exLongMachine "abc\nab\n".toList "a\nabc\n".toList "2".toList with
    reporterLibrary := fun _ => some (some "json".toList)
    canOpen := fun f => decide (f = "/w/out".toList)
    report := fun _ a => (jsonReport exLongInfo 7 ⟨exLongResults, a⟩).bind fun _ => .ok () }

def exJsonVoices : Voices SourceUnit where
  parserError := []
  configErrors := []
  dlerror := fun _ => []
  mainFile := fun u => u.mainPath
  text := fun _ a => exText (jsonReport exLongInfo 7 ⟨exLongResults, a⟩)

/-- The reporters of that machine are the shipped one for JSON. -/
example : ShippedReporters exJsonMachine exJsonVoices exLongInfo ⟨7, none, []⟩ (fun _ => .json)
    exLongResults where
  named := by
    intro q name h
    exact ((Option.some.inj (Option.some.inj h))).symm
  writes := by
    intro q a s h
    replace h : jsonReport exLongInfo 7 ⟨exLongResults, a⟩ = .ok s := h
    constructor
    · show (jsonReport exLongInfo 7 ⟨exLongResults, a⟩).bind _ = _
      rw [h]
      rfl
    · show exText (jsonReport exLongInfo 7 ⟨exLongResults, a⟩) = s
      rw [h]
      rfl
  undefined := by
    intro q a h
    replace h : jsonReport exLongInfo 7 ⟨exLongResults, a⟩ = .ub := h
    show (jsonReport exLongInfo 7 ⟨exLongResults, a⟩).bind _ = _
    rw [h]
    rfl

/-- Two long lines, in the file `/w/out`, from the command line on. -/
example : mainConsole exJsonMachine exJsonVoices
    (some { enabledRules := ["LongLine".toList], ruleConfiguration := ["LONG_LINE=2".toList],
            reportType := some "json".toList, output := some "out".toList }) =
      .ok (⟨[], [], [], [("/w/out".toList,
        ("{\"version\":\"24.11\",\"url\":\"https://oclint.org\",\"timestamp\":7,".toList ++
        "\"summary\":{\"numberOfFiles\":2,\"numberOfFilesWithViolations\":2,".toList ++
        "\"numberOfViolationsWithPriority\":[{\"priority\":1,\"number\":0},".toList ++
        "{\"priority\":2,\"number\":0},{\"priority\":3,\"number\":2}]},\"violation\":[".toList ++
        "{\"path\":\"a.c\",\"startLine\":1,\"startColumn\":1,\"endLine\":1,\"endColumn\":3,".toList ++
        "\"rule\":\"long line\",\"category\":\"size\",\"priority\":3,".toList ++
        "\"message\":\"Line with 3 characters exceeds limit of 2\"},".toList ++
        "{\"path\":\"b.c\",\"startLine\":2,\"startColumn\":1,\"endLine\":2,\"endColumn\":3,".toList ++
        "\"rule\":\"long line\",\"category\":\"size\",\"priority\":3,".toList ++
        "\"message\":\"Line with 3 characters exceeds limit of 2\"}],\"clangStaticAnalyzer\":[]}\n".toList))]⟩,
        .SUCCESS) := by decide +kernel

end Oclint
