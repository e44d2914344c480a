import Verif.Lemmas.ReadNumbers
import Verif.Lemmas.Metrics
import Verif.Lemmas.Results

/-!
# C55, C58: the text and Xcode reports

If paths contain no colon, rule names no `[`, categories no `|` and nothing a newline, the line based
reports read back as exactly the collected results.
-/

set_option linter.unusedSimpArgs false

namespace Oclint
open Spec

theorem readPlace_ok (p : Str) (l c : Int) (r : Str) (h : ':' ∉ p) :
    readPlace (p ++ ':' :: (decimalInt l ++ ':' :: (decimalInt c ++ ':' :: r))) =
      some ((p, l, c), r) := by
  have hl : ':' ∉ decimalInt l := not_mem_decimalInt l _ (by decide) (by decide)
  have hc : ':' ∉ decimalInt c := not_mem_decimalInt c _ (by decide) (by decide)
  simp only [readPlace, cut_append _ _ _ h, cut_append _ _ _ hl, cut_append _ _ _ hc,
    Option.bind_eq_bind, Option.bind_some, readInt_decimalInt, Option.pure_def]

theorem dropSpace_ok (n : Str) : dropSpace (n ++ [' ']) = some n := by
  simp [dropSpace]

theorem readViolationLine_ok (tag p : Str) (l c : Int) (name category : Str) (prio : Int) (msg : Str)
    (hp : ':' ∉ p) (hn : '[' ∉ name) (hc : '|' ∉ category) :
    readViolationLine tag (p ++ ':' :: (decimalInt l ++ ':' :: (decimalInt c ++ ':' :: (tag ++
      (name ++ ' ' :: '[' :: (category ++ '|' :: 'P' :: (decimalInt prio ++ ']' :: ' ' :: msg))))))) =
      some ⟨p, l, c, name, category, prio, msg⟩ := by
  have hn' : '[' ∉ name ++ [' '] := by
    rw [List.mem_append]
    rintro (h | h)
    · exact hn h
    · revert h; decide
  have hq : ']' ∉ decimalInt prio := not_mem_decimalInt prio _ (by decide) (by decide)
  have e1 : ∀ r, cut '[' (name ++ ' ' :: '[' :: r) = some (name ++ [' '], r) := by
    intro r
    have := cut_append '[' (name ++ [' ']) r hn'
    simpa using this
  have e2 : ∀ r, strip ['P'] ('P' :: r) = some r := fun r => strip_append ['P'] r
  have e3 : ∀ r, strip [' '] (' ' :: r) = some r := fun r => strip_append [' '] r
  simp only [readViolationLine, readPlace_ok _ _ _ _ hp, strip_append, e1, dropSpace_ok,
    cut_append _ _ _ hc, e2, cut_append _ _ _ hq, readInt_decimalInt, e3, Option.bind_eq_bind,
    Option.bind_some, Option.pure_def]

theorem readDiagLine_ok (p : Str) (l c : Int) (msg : Str) (hp : ':' ∉ p) :
    readDiagLine (p ++ ':' :: (decimalInt l ++ ':' :: (decimalInt c ++ ':' :: ' ' :: msg))) =
      some ⟨p, l, c, msg⟩ := by
  have e3 : ∀ r, strip [' '] (' ' :: r) = some r := fun r => strip_append [' '] r
  simp only [readDiagLine, readPlace_ok _ _ _ _ hp, e3, Option.bind_eq_bind, Option.bind_some,
    Option.pure_def]

/-- The line for a violation with a rule. -/
def lineText (info : RuleId → RuleInfo) (tag : Str) (v : Violation) : Str :=
  match v.rule with
  | none => []
  | some r =>
    v.path ++ ':' :: (decimalInt v.startLine ++ ':' :: (decimalInt v.startColumn ++ ':' :: (tag ++
      ((info r).name ++ ' ' :: '[' :: ((info r).category ++ '|' :: 'P' ::
        (decimalInt (info r).priority ++ ']' :: ' ' :: v.message))))))

/-- The line for a diagnostic. -/
def diagText (v : Violation) : Str :=
  v.path ++ ':' :: (decimalInt v.startLine ++ ':' :: (decimalInt v.startColumn ++ ':' :: ' ' :: v.message))

theorem textDiagnostic_eq (v : Violation) : textDiagnostic v = diagText v := by
  unfold textDiagnostic diagText
  simp only [toStringInt_eq, List.append_assoc, List.cons_append, List.nil_append]

theorem textViolation_eq (info : RuleId → RuleInfo) (v : Violation) (h : v.rule ≠ none) :
    textViolation info v = .ok (lineText info [' '] v) := by
  unfold textViolation lineText derefRule
  cases hr : v.rule with
  | none => exact absurd hr h
  | some r =>
    simp only [bind_ok', Outcome.pure_eq, toStringInt_eq, List.append_assoc, List.cons_append,
      List.nil_append]

theorem lit_warning : ": warning: ".toList = ':' :: " warning: ".toList := by decide

theorem xcodeViolation_eq (info : RuleId → RuleInfo) (v : Violation) (h : v.rule ≠ none) :
    xcodeViolation info v = .ok (lineText info " warning: ".toList v) := by
  unfold xcodeViolation lineText derefRule
  rw [lit_warning]
  cases hr : v.rule with
  | none => exact absurd hr h
  | some r =>
    simp only [bind_ok', Outcome.pure_eq, toStringInt_eq, List.append_assoc, List.cons_append,
      List.nil_append]

theorem lineClean_rule {info : RuleId → RuleInfo} {v : Violation} (h : LineClean info v) :
    v.rule ≠ none := by
  obtain ⟨r, hr, -⟩ := h
  rw [hr]; simp

theorem lineText_read (info : RuleId → RuleInfo) (tag : Str) (v : Violation) (h : LineClean info v) :
    readViolationLine tag (lineText info tag v) = lineRecord info v := by
  obtain ⟨r, hr, h1, -, -, h2, -, h3, -⟩ := h
  unfold lineText lineRecord
  rw [hr]
  exact readViolationLine_ok tag _ _ _ _ _ _ _ h1 h2 h3

theorem not_mem_cons {a c : Char} {s : Str} (h : a ≠ c) (hs : a ∉ s) : a ∉ c :: s := by
  simp [h, hs]

theorem not_mem_app {a : Char} {s t : Str} (hs : a ∉ s) (ht : a ∉ t) : a ∉ s ++ t := by
  simp [hs, ht]

theorem lineText_newline (info : RuleId → RuleInfo) (tag : Str) (v : Violation)
    (h : LineClean info v) (ht : '\n' ∉ tag) : '\n' ∉ lineText info tag v := by
  obtain ⟨r, hr, -, h1, h2, -, h3, -, h4⟩ := h
  have hd : ∀ z, '\n' ∉ decimalInt z := fun z => not_mem_decimalInt z _ (by decide) (by decide)
  unfold lineText
  rw [hr]
  refine not_mem_app h1 (not_mem_cons (by decide) (not_mem_app (hd _) (not_mem_cons (by decide)
    (not_mem_app (hd _) (not_mem_cons (by decide) (not_mem_app ht (not_mem_app h3
    (not_mem_cons (by decide) (not_mem_cons (by decide) (not_mem_app h4 (not_mem_cons (by decide)
    (not_mem_cons (by decide) (not_mem_app (hd _) (not_mem_cons (by decide)
    (not_mem_cons (by decide) h2)))))))))))))))

theorem lineText_ne_nil (info : RuleId → RuleInfo) (tag : Str) (v : Violation)
    (h : LineClean info v) : (lineText info tag v).isEmpty = false := by
  obtain ⟨r, hr, -⟩ := h
  unfold lineText
  rw [hr]
  cases v.path <;> rfl

theorem diagText_newline (v : Violation) (h : DiagClean v) : '\n' ∉ diagText v := by
  obtain ⟨-, h1, h2⟩ := h
  have hd : ∀ z, '\n' ∉ decimalInt z := fun z => not_mem_decimalInt z _ (by decide) (by decide)
  unfold diagText
  exact not_mem_app h1 (not_mem_cons (by decide) (not_mem_app (hd _) (not_mem_cons (by decide)
    (not_mem_app (hd _) (not_mem_cons (by decide) (not_mem_cons (by decide) h2))))))

theorem diagText_ne_nil (v : Violation) : (diagText v).isEmpty = false := by
  unfold diagText; cases v.path <;> rfl

theorem diagText_read (v : Violation) (h : DiagClean v) :
    readDiagLine (diagText v) = some (diagRecord v) :=
  readDiagLine_ok _ _ _ _ h.1

theorem readAll_map {α β : Type} (f : Str → Option β) (g : α → Str) (k : α → Option β) (l : List α)
    (h : ∀ a ∈ l, f (g a) = k a) : readAll f (l.map g) = l.mapM k := by
  induction l with
  | nil => rfl
  | cons a l ih =>
    rw [List.map_cons, readAll, h a (by simp), ih (fun b hb => h b (by simp [hb])), List.mapM_cons]
    cases k a with
    | none => rfl
    | some b => cases l.mapM k <;> rfl

theorem mapM_some {α β : Type} (k : α → β) (l : List α) :
    l.mapM (fun a => some (k a)) = some (l.map k) := by
  induction l with
  | nil => rfl
  | cons a l ih => rw [List.mapM_cons, ih]; rfl

/-! ## Xcode -/

theorem linesText_run (info : RuleId → RuleInfo) (tag : Str) (ht : '\n' ∉ tag) (vs : List Violation)
    (h : ∀ v ∈ vs, LineClean info v) (r : Str) :
    linesOf (vs.flatMap (fun v => lineText info tag v ++ endl) ++ r) =
      vs.map (lineText info tag) ++ linesOf r := by
  induction vs with
  | nil => rfl
  | cons v vs ih =>
    simp only [List.flatMap_cons, List.append_assoc, endl, List.cons_append, List.nil_append,
      List.map_cons]
    rw [linesOf_append _ _ (lineText_newline info tag v (h v (by simp)) ht)]
    have := ih (fun w hw => h w (by simp [hw]))
    unfold endl at this
    rw [this]

theorem writeLines_eq (info : RuleId → RuleInfo) (tag : Str) (f : Violation → Outcome Str)
    (hf : ∀ v, v.rule ≠ none → f v = .ok (lineText info tag v)) (vs : List Violation)
    (h : ∀ v ∈ vs, v.rule ≠ none) :
    writeEach (fun v => do let t ← f v; pure (t ++ endl)) vs =
      .ok (vs.flatMap fun v => lineText info tag v ++ endl) := by
  induction vs with
  | nil => rfl
  | cons v vs ih =>
    rw [writeEach, hf v (h v (by simp)), ih (fun w hw => h w (by simp [hw]))]
    rfl

/-- The records of the violations. -/
def lineRecords (info : RuleId → RuleInfo) (vs : List Violation) : List LineRecord :=
  vs.filterMap (lineRecord info)

theorem mapM_lineRecord (info : RuleId → RuleInfo) (vs : List Violation)
    (h : ∀ v ∈ vs, v.rule ≠ none) : vs.mapM (lineRecord info) = some (lineRecords info vs) := by
  induction vs with
  | nil => rfl
  | cons v vs ih =>
    unfold lineRecords at *
    rw [List.mapM_cons, ih (fun w hw => h w (by simp [hw]))]
    cases hr : v.rule with
    | none => exact absurd hr (h v (by simp))
    | some r => simp [lineRecord, hr]

/-- **C55 (Xcode).** Every violation is one line, in order, with all its fields; there is nothing
else in the report. -/
theorem C55_xcode_reads_back_partial (info : RuleId → RuleInfo) (w : ResultsView)
    (h : ∀ v ∈ w.answer .violations, LineClean info v) :
    ∃ s ls, xcodeReport info w = .ok s ∧ linesOf s = ls ++ [[]] ∧
      readAll (readViolationLine " warning: ".toList) ls =
        some (lineRecords info (w.answer .violations)) := by
  refine ⟨_, (w.answer .violations).map (lineText info " warning: ".toList),
    writeLines_eq info " warning: ".toList _ (xcodeViolation_eq info) _ (fun v hv => lineClean_rule (h v hv)),
    ?_, ?_⟩
  · have := linesText_run info " warning: ".toList (by decide) _ h []
    rw [List.append_nil] at this
    exact this
  · rw [readAll_map _ _ (lineRecord info) _ (fun v hv => lineText_read info _ v (h v hv))]
    exact mapM_lineRecord info _ (fun v hv => lineClean_rule (h v hv))

/-! ## Text -/

/-- The lines of a section. -/
def secLines (heading : List Str) (vs : List Violation) (rest : List Str) : List Str :=
  if vs = [] then rest else [[]] ++ heading ++ [[]] ++ vs.map diagText ++ rest

theorem diagLines_run (vs : List Violation) (h : ∀ v ∈ vs, DiagClean v) (r : Str) :
    linesOf (textDiagnosticLines vs ++ r) = vs.map diagText ++ linesOf r := by
  induction vs with
  | nil => rfl
  | cons v vs ih =>
    rw [textDiagnosticLines, textDiagnostic_eq]
    simp only [endl, List.append_assoc, List.cons_append, List.nil_append, List.map_cons]
    rw [linesOf_append _ _ (diagText_newline v (h v (by simp))), ih (fun w hw => h w (by simp [hw]))]

theorem linesOf_newline (r : Str) : linesOf ('\n' :: r) = [] :: linesOf r := by
  simp [linesOf]

theorem section_run (vs : List Violation) (H : Str) (heading : List Str)
    (hH : ∀ r, linesOf (H ++ '\n' :: r) = heading ++ linesOf r)
    (h : ∀ v ∈ vs, DiagClean v) (r : Str) :
    linesOf ((if hasAny vs then textDiagnostics vs H else []) ++ r) =
      secLines heading vs (linesOf r) := by
  cases vs with
  | nil => rfl
  | cons v vs =>
    have e : hasAny (v :: vs) = true := by simp [hasAny, numberOf]
    unfold secLines
    rw [if_pos e, if_neg (by simp)]
    unfold textDiagnostics
    simp only [endl, List.append_assoc, List.cons_append, List.nil_append]
    rw [linesOf_newline, hH, linesOf_newline, diagLines_run _ h]

theorem takeWhile_lines (ls rest : List Str) (h : ∀ l ∈ ls, l.isEmpty = false) :
    paragraph (ls ++ [] :: rest) = (ls, [] :: rest) := by
  unfold paragraph
  induction ls with
  | nil => simp
  | cons l ls ih =>
    have hl := h l (by simp)
    have := ih (fun m hm => h m (by simp [hm]))
    simp only [Prod.mk.injEq] at this
    simp only [List.cons_append, List.takeWhile_cons, List.dropWhile_cons, hl, Bool.not_false, if_true,
      this.1, this.2]

theorem readSection_ok (first : Str) (more : List Str) (vs : List Violation) (x : Str)
    (rest : List Str) (hx : x ≠ first) (h : ∀ v ∈ vs, DiagClean v) :
    readSection (first :: more) (secLines (first :: more) vs ([] :: x :: rest)) =
      some (vs.map diagRecord, [] :: x :: rest) := by
  unfold readSection secLines
  by_cases hv : vs = []
  · subst hv
    rw [if_pos rfl, if_neg]
    · rfl
    · intro hc
      have := congrArg (fun l => l[1]?) hc
      simp at this
      exact hx this
  · rw [if_neg hv]
    have e1 : ([[]] ++ (first :: more) ++ [[]] ++ vs.map diagText ++ [] :: x :: rest).take
        ((first :: more).length + 2) = [[]] ++ (first :: more) ++ [[]] := by
      rw [List.append_assoc _ (vs.map diagText)]
      apply List.take_left'
      simp
    have e2 : ([[]] ++ (first :: more) ++ [[]] ++ vs.map diagText ++ [] :: x :: rest).drop
        ((first :: more).length + 2) = vs.map diagText ++ [] :: x :: rest := by
      rw [List.append_assoc _ (vs.map diagText)]
      apply List.drop_left'
      simp
    rw [if_pos e1, e2, takeWhile_lines _ _ (by
      intro l hl
      obtain ⟨v, -, rfl⟩ := List.mem_map.1 hl
      exact diagText_ne_nil v)]
    simp only
    rw [readAll_map _ _ (fun v => some (diagRecord v)) _ (fun v hv => diagText_read v (h v hv)),
      mapM_some]
    rfl

theorem readTotal_ok (key : String) (z : Int) (r : Str) :
    readTotal key (key.toList ++ (decimalInt z ++ ' ' :: r)) = some (z, r) := by
  have h : ' ' ∉ decimalInt z := not_mem_decimalInt z _ (by decide) (by decide)
  simp only [readTotal, strip_append, cut_append _ _ _ h, readInt_decimalInt, Option.bind_eq_bind,
    Option.bind_some, Option.pure_def]

/-- The summary line. -/
def summaryLine (a b p1 p2 p3 : Int) : Str :=
  "Summary: TotalFiles=".toList ++ (decimalInt a ++ ' ' :: ("FilesWithViolations=".toList ++
    (decimalInt b ++ ' ' :: ("P1=".toList ++ (decimalInt p1 ++ ' ' :: ("P2=".toList ++
      (decimalInt p2 ++ ' ' :: ("P3=".toList ++ (decimalInt p3 ++ [' '])))))))))

theorem readSummaryLine_ok (a b p1 p2 p3 : Int) :
    readSummaryLine (summaryLine a b p1 p2 p3) = some (a, b, p1, p2, p3) := by
  unfold readSummaryLine summaryLine
  simp only [readTotal_ok, Option.bind_eq_bind, Option.bind_some, if_true, Option.pure_def]

theorem summaryLine_newline (a b p1 p2 p3 : Int) : '\n' ∉ summaryLine a b p1 p2 p3 := by
  have hd : ∀ z, '\n' ∉ decimalInt z := fun z => not_mem_decimalInt z _ (by decide) (by decide)
  unfold summaryLine
  exact not_mem_app (by decide) (not_mem_app (hd _) (not_mem_cons (by decide) (not_mem_app (by decide)
    (not_mem_app (hd _) (not_mem_cons (by decide) (not_mem_app (by decide) (not_mem_app (hd _)
    (not_mem_cons (by decide) (not_mem_app (by decide) (not_mem_app (hd _) (not_mem_cons (by decide)
    (not_mem_app (by decide) (not_mem_app (hd _) (by decide))))))))))))))

theorem textSummary_eq (info : RuleId → RuleInfo) (w : ResultsView)
    (h : ∀ v ∈ w.answer .violations, v.rule ≠ none) :
    textSummary info w = .ok (summaryLine (numberOfFiles w.collector)
      (numberOfFilesWithViolations w.collector)
      (countWithPriority (fun r => (info r).priority) 1 (w.answer .violations))
      (countWithPriority (fun r => (info r).priority) 2 (w.answer .violations))
      (countWithPriority (fun r => (info r).priority) 3 (w.answer .violations))) := by
  have e : ∀ p, priorityTotal info w p =
      .ok (countWithPriority (fun r => (info r).priority) p (w.answer .violations)) := by
    intro p
    unfold priorityTotal numberOfViolationsWithPriority
    rw [countPriorityLoop_eq _ _ _ h]
    simp
  unfold textSummary summaryLine
  simp only [e, bind_ok', Outcome.pure_eq, toStringInt_eq, List.append_assoc, List.cons_append,
    List.nil_append]

theorem heading_errors (r : Str) : linesOf (textErrorsHeader ++ '\n' :: r) = errorsHeading ++ linesOf r := by
  have e : textErrorsHeader = "Compiler Errors:".toList ++ '\n' ::
      "(please be aware that these errors will prevent OCLint from analyzing this source code)".toList := by
    decide +kernel
  unfold errorsHeading
  rw [e, List.append_assoc, List.cons_append, linesOf_append _ _ (by decide),
    linesOf_append _ _ (by decide)]
  rfl

theorem heading_warnings (r : Str) :
    linesOf (textWarningsHeader ++ '\n' :: r) = ["Compiler Warnings:".toList] ++ linesOf r := by
  unfold textWarningsHeader
  rw [linesOf_append _ _ (by decide)]
  rfl

theorem heading_bugs (r : Str) :
    linesOf (textBugsHeader ++ '\n' :: r) = ["Clang Static Analyzer Results:".toList] ++ linesOf r := by
  unfold textBugsHeader
  rw [linesOf_append _ _ (by decide)]
  rfl

/-- The second line of what follows a section. -/
theorem secLines_shape (first : Str) (more : List Str) (vs : List Violation) (x : Str)
    (rest : List Str) : ∃ y rest', secLines (first :: more) vs ([] :: x :: rest) = [] :: y :: rest' ∧
      (y = x ∨ y = first) := by
  unfold secLines
  split_ifs
  · exact ⟨x, rest, rfl, .inl rfl⟩
  · exact ⟨first, _, rfl, .inr rfl⟩

/-- **C55, C58 (text).** The report reads back as: the compiler errors, warnings and analyzer
findings, the totals, and one line per violation, everything in order and with all fields. -/
theorem C55_text_reads_back_partial (info : RuleId → RuleInfo) (w : ResultsView)
    (hv : ∀ v ∈ w.answer .violations, LineClean info v)
    (hd : ∀ ch, ch ≠ .violations → ∀ v ∈ w.answer ch, DiagClean v) :
    ∃ s, textReport info w = .ok s ∧ readText s = some
      { errors := (w.answer .errors).map diagRecord
        warnings := (w.answer .warnings).map diagRecord
        bugs := (w.answer .checkerBugs).map diagRecord
        files := numberOfFiles w.collector
        filesWithViolations := numberOfFilesWithViolations w.collector
        p1 := countWithPriority (fun r => (info r).priority) 1 (w.answer .violations)
        p2 := countWithPriority (fun r => (info r).priority) 2 (w.answer .violations)
        p3 := countWithPriority (fun r => (info r).priority) 3 (w.answer .violations)
        violations := lineRecords info (w.answer .violations) } := by
  have hrule : ∀ v ∈ w.answer .violations, v.rule ≠ none := fun v h => lineClean_rule (hv v h)
  unfold textReport textViolations
  rw [textSummary_eq info w hrule,
    writeLines_eq info [' '] _ (textViolation_eq info) _ hrule]
  simp only [bind_ok', Outcome.pure_eq]
  refine ⟨_, rfl, ?_⟩
  generalize hA : summaryLine (numberOfFiles w.collector) (numberOfFilesWithViolations w.collector)
      (countWithPriority (fun r => (info r).priority) 1 (w.answer .violations))
      (countWithPriority (fun r => (info r).priority) 2 (w.answer .violations))
      (countWithPriority (fun r => (info r).priority) 3 (w.answer .violations)) = summary
  have hAn : '\n' ∉ summary := hA ▸ summaryLine_newline _ _ _ _ _
  have hAr : readSummaryLine summary = some _ := hA ▸ readSummaryLine_ok _ _ _ _ _
  have hfoot : textFooter versionText = "[OCLint (https://oclint.org) v24.11]".toList := by decide +kernel
  have hfootn : '\n' ∉ "[OCLint (https://oclint.org) v24.11]".toList := by decide
  have hheadn : '\n' ∉ textHeader := by decide
  have tail : ∀ sec : Str, linesOf (sec ++ (endl ++ (endl ++ (textHeader ++ (endl ++ (endl ++ (summary ++
      (endl ++ (endl ++ ((w.answer .violations).flatMap (fun v => lineText info [' '] v ++ endl) ++
      (endl ++ (textFooter versionText ++ endl)))))))))))) =
      linesOf (sec ++ ('\n' :: '\n' :: (textHeader ++ '\n' :: '\n' :: (summary ++ '\n' :: '\n' ::
        ((w.answer .violations).flatMap (fun v => lineText info [' '] v ++ endl) ++
          '\n' :: (textFooter versionText ++ ['\n']))))))  := fun _ => rfl
  have final : linesOf ('\n' :: '\n' :: (textHeader ++ '\n' :: '\n' :: (summary ++ '\n' :: '\n' ::
        ((w.answer .violations).flatMap (fun v => lineText info [' '] v ++ endl) ++
          '\n' :: (textFooter versionText ++ ['\n']))))) =
      [] :: [] :: textHeader :: [] :: summary :: [] :: ((w.answer .violations).map (lineText info [' '])
        ++ [[], "[OCLint (https://oclint.org) v24.11]".toList, []]) := by
    rw [linesOf_newline, linesOf_newline, linesOf_append _ _ hheadn, linesOf_newline,
      linesOf_append _ _ hAn, linesOf_newline, linesText_run info [' '] (by decide) _ hv,
      linesOf_newline, hfoot, linesOf_append _ _ hfootn]
    rfl
  unfold readText
  rw [show ∀ e w' b s v : Str, e ++ w' ++ b ++ endl ++ endl ++ textHeader ++ endl ++ endl ++ s ++ endl
    ++ endl ++ v ++ endl ++ textFooter versionText ++ endl = e ++ (w' ++ (b ++ (endl ++ (endl ++
    (textHeader ++ (endl ++ (endl ++ (s ++ (endl ++ (endl ++ (v ++ (endl ++ (textFooter versionText ++
    endl))))))))))))) from fun e w' b s v => by simp only [List.append_assoc]]
  rw [section_run _ _ _ heading_errors (hd _ (by decide)),
    section_run _ _ _ heading_warnings (hd _ (by decide)),
    section_run _ _ _ heading_bugs (hd _ (by decide))]
  have fin' := (tail []).trans final
  rw [List.nil_append] at fin'
  rw [fin']
  obtain ⟨y1, r1, e1, hy1⟩ := secLines_shape "Clang Static Analyzer Results:".toList []
    (w.answer .checkerBugs) [] (textHeader :: [] :: summary :: [] ::
      ((w.answer .violations).map (lineText info [' '])
        ++ [[], "[OCLint (https://oclint.org) v24.11]".toList, []]))
  obtain ⟨y2, r2, e2, hy2⟩ := secLines_shape "Compiler Warnings:".toList [] (w.answer .warnings) y1 r1
  have s3 := readSection_ok "Clang Static Analyzer Results:".toList [] (w.answer .checkerBugs) []
    (textHeader :: [] :: summary :: [] :: ((w.answer .violations).map (lineText info [' '])
        ++ [[], "[OCLint (https://oclint.org) v24.11]".toList, []])) (by decide) (hd _ (by decide))
  rw [e1] at s3 ⊢
  have s2 := readSection_ok "Compiler Warnings:".toList [] (w.answer .warnings) y1 r1
    (by rcases hy1 with rfl | rfl <;> decide) (hd _ (by decide))
  rw [e2] at s2 ⊢
  have s1 : readSection errorsHeading (secLines errorsHeading (w.answer .errors) ([] :: y2 :: r2)) = _ :=
    readSection_ok "Compiler Errors:".toList _ (w.answer .errors) y2 r2
    (by rcases hy2 with rfl | rfl
        · rcases hy1 with rfl | rfl <;> decide
        · decide) (hd _ (by decide))
  have par := takeWhile_lines ((w.answer .violations).map (lineText info [' ']))
    ["[OCLint (https://oclint.org) v24.11]".toList, []] (by
      intro l hl
      obtain ⟨v, h, rfl⟩ := List.mem_map.1 hl
      exact lineText_ne_nil info _ v (hv v h))
  have rd : readAll (readViolationLine [' ']) ((w.answer .violations).map (lineText info [' '])) =
      some (lineRecords info (w.answer .violations)) := by
    rw [readAll_map _ _ (lineRecord info) _ (fun v h => lineText_read info _ v (hv v h))]
    exact mapM_lineRecord info _ hrule
  simp only [s1, s2, s3, Option.bind_eq_bind, Option.bind_some]
  have hh : textHeader = "OCLint Report".toList := rfl
  rw [hh]
  simp only [List.take_succ_cons, List.take_zero, List.drop_succ_cons, List.drop_zero, if_true, par, rd,
    hAr, Option.bind_some, Option.pure_def]

end Oclint
