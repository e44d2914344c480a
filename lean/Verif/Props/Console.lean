import Verif.Lemmas.Console
import Verif.Props.Main
import Verif.Props.Run

/-!
# C89: what the main program writes
-/

namespace Oclint
open Spec

variable {U σ κ : Type}

theorem printErrorLine_eq (c : Console) (w : Str) :
    printErrorLine c w = { c with err := c.err ++ complaint w } := by
  unfold printErrorLine complaint
  congr 1
  simp only [List.append_assoc, List.append_cancel_left_eq]
  rfl

theorem listRules_fold (names : List Str) (c : Console) :
    names.foldl (fun c n => { c with out := c.out ++ "- ".toList ++ n ++ ['\n'] }) c =
      ({ c with out := c.out ++ names.flatMap fun n => "- ".toList ++ n ++ "\n".toList } : Console) := by
  induction names generalizing c with
  | nil => simp
  | cons n ns ih =>
    rw [List.foldl_cons, ih, List.flatMap_cons]
    simp only [List.append_assoc]
    rfl

theorem listRules_eq (m : Machine U σ κ) (st : OptionState) (c : Console) (reg : Registry)
    (h : reg = registryAfter (((rulesPath m.env st).flatMap (pluginPaths m.listing)).eraseDups.flatMap
      fun p => (m.ruleLibrary p).getD [])) :
    listRules c st.filter reg m.ruleIdentifier = .ok { c with out := c.out ++ listing m st true } := by
  have hn : st.filter.filteredRuleNames reg m.ruleIdentifier =
      .ok ((runningRules m st).map fun r => m.ruleIdentifier r) := by
    unfold RulesetFilter.filteredRuleNames
    rw [h, filteredRules_eq]
    rfl
  unfold listRules
  rw [hn, Outcome.bind_ok]
  simp only [listRules_fold, Outcome.pure_eq]
  congr 2
  unfold listing
  rw [if_pos rfl, List.flatMap_map]
  have h1 : "Enabled rules:\n".toList = "Enabled rules:".toList ++ ['\n'] := rfl
  have h2 : "\n".toList = ['\n'] := rfl
  rw [h1, h2]
  generalize "Enabled rules:".toList = x
  generalize "- ".toList = y
  simp only [List.append_assoc]

theorem reportConsole_cases (m : Machine U σ κ) (text : Str → Answers → Str) (st : OptionState)
    (asked : Bool) (r : Str) (a : Answers) (e g : Str) :
    (∃ out files, Placed m st asked (text r a) out files ∧
      reportConsole m text st r a ⟨listing m st asked, e, g, []⟩ =
        match m.report r a with
        | .ub => .ub
        | .throws w => .ok (⟨out, e ++ complaint w, g, files⟩, some .ERROR_WHILE_REPORTING)
        | .ok () => .ok (⟨out, e, g, files⟩, none)) ∨
    (∃ f, st.argOutput.value ≠ "-".toList ∧ outputPath st = .ok f ∧ m.canOpen f = false ∧
      reportConsole m text st r a ⟨listing m st asked, e, g, []⟩ =
        .ok (⟨listing m st asked, e ++ complaint ("cannot open report output file ".toList ++ f), g, []⟩,
          some .ERROR_WHILE_REPORTING)) ∨
    (∃ w, st.argOutput.value = [] ∧ outputPath st = .throws w ∧
      reportConsole m text st r a ⟨listing m st asked, e, g, []⟩ =
        .ok (⟨listing m st asked, e ++ complaint w, g, []⟩, some .ERROR_WHILE_REPORTING)) := by
  by_cases hd : st.argOutput.value = "-".toList
  · left
    refine ⟨_, _, .screen hd, ?_⟩
    have : outStream m.canOpen st = .ok none := by
      unfold outStream hasOutputPath
      simp only [hd, ne_eq, not_true_eq_false, decide_false, Bool.not_false, if_true]
    unfold reportConsole
    rw [this]
    cases m.report r a <;> simp only [writeReport, printErrorLine_eq]
  · have hs : outStream m.canOpen st = (outputPath st >>= fun output =>
        if m.canOpen output then pure (some output)
        else .throws ("cannot open report output file ".toList ++ output)) := by
      unfold outStream hasOutputPath
      simp only [ne_eq, hd, not_false_eq_true, decide_true, Bool.not_true, Bool.false_eq_true, if_false]
    generalize "cannot open report output file ".toList = msg at hs
    cases ho : outputPath st with
    | ub =>
      exfalso
      unfold outputPath at ho
      split at ho
      · cases ho
      · split at ho <;> cases ho
    | throws w =>
      right; right
      refine ⟨w, ?_, rfl, ?_⟩
      · unfold outputPath at ho
        split at ho
        · assumption
        · split at ho <;> cases ho
      · unfold reportConsole
        rw [hs, ho]
        simp only [Outcome.bind_throws, printErrorLine_eq]
    | ok f =>
      cases hf : m.canOpen f with
      | false =>
        right; left
        refine ⟨f, hd, rfl, hf, ?_⟩
        unfold reportConsole
        rw [hs, ho]
        simp only [Outcome.bind_ok, hf, Bool.false_eq_true, if_false, printErrorLine_eq]
      | true =>
        left
        refine ⟨_, _, .file f hd ho hf, ?_⟩
        unfold reportConsole
        rw [hs, ho]
        simp only [Outcome.bind_ok, hf, if_true, Outcome.pure_eq]
        cases m.report r a <;> simp only [writeReport, printErrorLine_eq, List.nil_append]

theorem printExceedError_eq (m : Machine U σ κ) (st : OptionState) (c : Console) (a : Answers)
    (h : ∀ v ∈ a .violations, v.rule ≠ none) :
    printExceedError c m.priorityOf st a = .ok { c with err := c.err ++
      (complaint "violations exceed threshold".toList ++ countsText m st (a .violations)) } := by
  unfold printExceedError
  simp only [C04_priority_count m.priorityOf _ _ h, Outcome.bind_ok, Outcome.pure_eq, printErrorLine_eq]
  congr 2
  unfold countsText countText
  have h1 : "P1=".toList = "P1".toList ++ "=".toList := rfl
  have h2 : "P2=".toList = "P2".toList ++ "=".toList := rfl
  have h3 : "P3=".toList = "P3".toList ++ "=".toList := rfl
  have h4 : "\n".toList = ['\n'] := rfl
  rw [h1, h2, h3, h4]
  simp only [List.append_assoc]

theorem handleExitConsole_cases (m : Machine U σ κ) (st : OptionState) (c : ResultCollector)
    (k : Console) (h : ∀ v ∈ answers st c .violations, v.rule ≠ none) :
    (rawAll c .errors ≠ [] ∧
      handleExitConsole m.priorityOf st (answers st c) k = .ok (k, .COMPILATION_ERRORS)) ∨
    (rawAll c .errors = [] ∧ ¬ WithinLimits m st (answers st c .violations) ∧
      handleExitConsole m.priorityOf st (answers st c) k = .ok ({ k with err := k.err ++
        (complaint "violations exceed threshold".toList ++
          countsText m st (answers st c .violations)) }, .VIOLATIONS_EXCEED_THRESHOLD)) ∨
    (rawAll c .errors = [] ∧ WithinLimits m st (answers st c .violations) ∧
      handleExitConsole m.priorityOf st (answers st c) k = .ok (k, .SUCCESS)) := by
  unfold handleExitConsole
  by_cases he : hasAny (answers st c .errors) = true
  · left
    rw [if_pos he]
    exact ⟨(answers_errors st _).1 he, rfl⟩
  · right
    rw [if_neg he]
    have hne : rawAll c .errors = [] := by
      by_contra hc; exact he ((answers_errors st _).2 hc)
    obtain ⟨b, hb1, hb2⟩ := exceedThreshold_eq m st (answers st c) h
    rw [hb1, Outcome.bind_ok]
    cases b with
    | true =>
      left
      refine ⟨hne, hb2.1 rfl, ?_⟩
      rw [if_pos rfl, printExceedError_eq m st k _ h]
      rfl
    | false =>
      right
      refine ⟨hne, ?_, rfl⟩
      by_contra hc
      exact absurd (hb2.2 hc) (by simp)

/-- The program after loading. -/
def loadedConsole [DecidableEq κ] (m : Machine U σ κ) (v : Voices U) (st : OptionState)
    (cli : CommandLine) (r : Str) : Outcome (Console × ExitCode) :=
  analysisConsole m v st cli.verbose (runningRules m st) r
    ⟨listing m st cli.listEnabledRules, v.configErrors, [], []⟩

theorem toErr_nil (c : Console) : c.toErr [] = c := by
  unfold Console.toErr
  rw [List.append_nil]

theorem libraryText_eq (v : Voices U) (p : Str) :
    printErrorLine (Console.toErr ⟨[], v.configErrors, [], []⟩ (v.dlerror p ++ ['\n']))
        ("cannot open dynamic library: ".toList ++ p) =
      ⟨[], v.configErrors ++ libraryText v p, [], []⟩ := by
  rw [printErrorLine_eq]
  unfold Console.toErr libraryText
  have h : "\n".toList = ['\n'] := rfl
  rw [h]
  simp only [List.append_assoc]

/-- `main`, by how loading goes. -/
theorem mainConsole_loading [DecidableEq κ] (m : Machine U σ κ) (v : Voices U) (cli : CommandLine)
    (st : OptionState) (hst : processOptions m.env cli = .ok st) :
    (∃ p, BrokenRule m st p ∧ mainConsole m v (some cli) =
      .ok (⟨[], v.configErrors ++ libraryText v p, [], []⟩, .RULE_NOT_FOUND)) ∨
    (NoRules m st ∧ mainConsole m v (some cli) =
      .ok (⟨[], v.configErrors ++ complaint "no rule loaded".toList, [], []⟩, .RULE_NOT_FOUND)) ∨
    (RulesLoad m st ∧
      ((∃ p, BrokenReporter m st p ∧ mainConsole m v (some cli) =
        .ok (⟨[], v.configErrors ++ libraryText v p, [], []⟩, .REPORTER_NOT_FOUND)) ∨
      ((∀ q ∈ pluginPaths m.listing (reporterDir m.env), OtherReporter m st q) ∧
        mainConsole m v (some cli) = .ok (⟨[], v.configErrors ++
          complaint ("cannot find dynamic library for report type: ".toList ++
            st.argReportType.value), [], []⟩, .REPORTER_NOT_FOUND)) ∨
      ((∀ p, ¬ ReporterAt m st p ∧ ¬ BrokenReporter m st p) ∧
        (¬ ∀ q ∈ pluginPaths m.listing (reporterDir m.env), OtherReporter m st q) ∧
        mainConsole m v (some cli) = .ub) ∨
      (∃ r, ReporterAt m st r ∧ mainConsole m v (some cli) = loadedConsole m v st cli r))) := by
  have hstart : Console.empty.toErr v.configErrors = ⟨[], v.configErrors, [], []⟩ := rfl
  unfold mainConsole
  simp only [hst, Outcome.bind_ok, hstart]
  unfold prepareConsole
  rcases loudRules_cases m v.dlerror st with ⟨p, h1, h2⟩ | ⟨h1, ld, h2, h3⟩ | ⟨h1, ld, h2, h3, h4⟩
  · left
    refine ⟨p, h1, ?_⟩
    rw [h2]
    simp only [libraryError, libraryText_eq]
  · right; left
    refine ⟨h1, ?_⟩
    rw [h2]
    simp only [toErr_nil, if_pos h3, printErrorLine_eq]
  · right; right
    refine ⟨h1, ?_⟩
    rw [h2]
    simp only [toErr_nil, if_neg h3]
    unfold reporterConsole
    rw [show reporterPath m.env = reporterDir m.env from rfl]
    rcases loudReporter_cases m v.dlerror st with
      ⟨p, h5, h6, -⟩ | ⟨h5, h6, -⟩ | ⟨h5, h5', h6, -⟩ | ⟨r, h5, h6, -⟩
    · left
      refine ⟨p, h5, ?_⟩
      rw [h6]
      simp only [libraryError, libraryText_eq]
    · right; left
      refine ⟨h5, ?_⟩
      rw [h6]
      simp only [toErr_nil, printErrorLine_eq]
    · right; right; left
      refine ⟨h5, h5', ?_⟩
      rw [h6]
    · right; right; right
      refine ⟨r, h5, ?_⟩
      rw [h6]
      simp only [toErr_nil]
      have hlist : listIfAsked m st cli.listEnabledRules ld.registry ⟨[], v.configErrors, [], []⟩ =
          .ok (⟨listing m st cli.listEnabledRules, v.configErrors, [], []⟩ : Console) := by
        unfold listIfAsked
        cases cli.listEnabledRules with
        | true => rw [if_pos rfl, listRules_eq m st _ ld.registry h4]; rfl
        | false => rfl
      simp only [runConsole]
      rw [hlist, h4, filteredRules_eq]
      rfl

/-- `main`, by how the analysis goes. -/
theorem loadedConsole_cases [DecidableEq κ] (m : Machine U σ κ) (v : Voices U) (st : OptionState)
    (cli : CommandLine) (r : Str) :
    (∃ w log, Aborted m v st cli.verbose w log ∧ loadedConsole m v st cli r =
      .ok (⟨listing m st cli.listEnabledRules, preface m v ++ complaint w, log, []⟩,
        .ERROR_WHILE_PROCESSING)) ∨
    (analysis m st = .ub ∧ loadedConsole m v st cli r = .ub) ∨
    (∃ c log, Analysed m v st cli.verbose c log ∧ analysis m st = .ok c ∧
      (∀ v ∈ answers st c .violations, v.rule ≠ none) ∧
      loadedConsole m v st cli r =
        match reportConsole m v.text st r (answers st c)
            ⟨listing m st cli.listEnabledRules, preface m v, log, []⟩ with
        | .ub => .ub
        | .throws w => .throws w
        | .ok (c, some status) => .ok (c, status)
        | .ok (k, none) => handleExitConsole m.priorityOf st (answers st c) k) := by
  unfold loadedConsole analysisConsole
  have hres := C92_result m.toolchain m.mainExecutable st.argGlobalAnalysis.value
    st.argClangChecker.value ⟨runningRules m st, m.takeoff⟩ m.db m.sources cli.verbose v.mainFile
    ⟨m.env.cwd, ResultCollector.empty, m.initialRules⟩
  have hok := C92_completes m.toolchain m.mainExecutable st.argGlobalAnalysis.value
    st.argClangChecker.value ⟨runningRules m st, m.takeoff⟩ m.db m.sources cli.verbose v.mainFile
    ⟨m.env.cwd, ResultCollector.empty, m.initialRules⟩
  have hthrow := C92_stops m.toolchain m.mainExecutable st.argGlobalAnalysis.value
    st.argClangChecker.value ⟨runningRules m st, m.takeoff⟩ m.db m.sources cli.verbose v.mainFile
    ⟨m.env.cwd, ResultCollector.empty, m.initialRules⟩
  have herr := verboseRun_eq cli.verbose v.mainFile m.toolchain m.mainExecutable
    st.argGlobalAnalysis.value st.argClangChecker.value ⟨runningRules m st, m.takeoff⟩
    ⟨m.env.cwd, ResultCollector.empty, m.initialRules⟩ m.db m.sources
  generalize hx : verboseRun cli.verbose v.mainFile m.toolchain m.mainExecutable
    st.argGlobalAnalysis.value st.argClangChecker.value ⟨runningRules m st, m.takeoff⟩
    ⟨m.env.cwd, ResultCollector.empty, m.initialRules⟩ m.db m.sources = x at hres hok hthrow herr
  obtain ⟨err, said, res⟩ := x
  simp only at hres
  have herr : err = skipLines m.toolchain m.db m.sources := congrArg Prod.fst herr
  subst herr
  cases res with
  | ub =>
    right; left
    refine ⟨?_, rfl⟩
    simp [analysis, ← hres]
  | throws w =>
    left
    obtain ⟨-, words, h1, h2⟩ := (hthrow _ _ w).1 rfl
    subst h2
    refine ⟨w, _, .mk h1, ?_⟩
    simp only [printErrorLine_eq, List.nil_append]
    rfl
  | ok ds =>
    right; right
    obtain ⟨-, rs, bugs, h1, h2⟩ := (hok ds _ _).1 rfl
    subst h2
    refine ⟨ds.collector, _, .mk h1, by simp [analysis, ← hres],
      answers_ruled st ds.collector (driverRun_ruled hres.symm allRuled_empty), ?_⟩
    simp only [finishConsole, getResults_eq, List.nil_append]
    rfl

theorem analysed_iff (m : Machine U σ κ) (v : Voices U) (st : OptionState) (verbose : Bool)
    (c : ResultCollector) : (∃ log, Analysed m v st verbose c log) ↔ analysis m st = .ok c := by
  have h := C92_collects m.toolchain m.mainExecutable st.argGlobalAnalysis.value
    st.argClangChecker.value ⟨runningRules m st, m.takeoff⟩ m.db m.sources
    ⟨m.env.cwd, ResultCollector.empty, m.initialRules⟩
  unfold analysis
  constructor
  · rintro ⟨log, ⟨h1⟩⟩
    rw [(h _).2 ⟨_, _, h1⟩]
  · intro h1
    cases hd : driverRun m.toolchain m.mainExecutable st.argGlobalAnalysis.value
      st.argClangChecker.value ⟨runningRules m st, m.takeoff⟩
      ⟨m.env.cwd, ResultCollector.empty, m.initialRules⟩ m.db m.sources with
    | ub => rw [hd] at h1; cases h1
    | throws w => rw [hd] at h1; cases h1
    | ok ds =>
      rw [hd] at h1
      cases h1
      obtain ⟨rs, bugs, h2⟩ := (h _).1 hd
      exact ⟨_, .mk h2⟩

theorem analysed_unique {m : Machine U σ κ} {v : Voices U} {st : OptionState} {verbose : Bool}
    {c c' : ResultCollector} {log log' : Str} (h : Analysed m v st verbose c log)
    (h' : Analysed m v st verbose c' log') : c = c' ∧ log = log' := by
  obtain ⟨h1⟩ := h
  obtain ⟨h2⟩ := h'
  obtain ⟨rfl, rfl, rfl⟩ := C92_unique m.toolchain m.mainExecutable _ _ _ _ _ _ _ _ _ _ h1 h2
  exact ⟨rfl, rfl⟩

theorem aborted_unique {m : Machine U σ κ} {v : Voices U} {st : OptionState} {verbose : Bool}
    {w w' log log' : Str} (h : Aborted m v st verbose w log) (h' : Aborted m v st verbose w' log') :
    w = w' ∧ log = log' := by
  obtain ⟨h1⟩ := h
  obtain ⟨h2⟩ := h'
  have hthrow := C92_stops m.toolchain m.mainExecutable st.argGlobalAnalysis.value
    st.argClangChecker.value ⟨runningRules m st, m.takeoff⟩ m.db m.sources verbose v.mainFile (fresh m)
  have e1 := (hthrow _ _ _).2 ⟨rfl, _, h1, rfl⟩
  have e2 := (hthrow _ _ _).2 ⟨rfl, _, h2, rfl⟩
  rw [e1] at e2
  have e3 := (Prod.mk.inj e2).2
  obtain ⟨e4, e5⟩ := Loud.mk.inj e3
  exact ⟨Outcome.throws.inj e5, e4⟩

theorem aborted_analysis {m : Machine U σ κ} {v : Voices U} {st : OptionState} {verbose : Bool}
    {w log : Str} (h : Aborted m v st verbose w log) : analysis m st = .throws w := by
  obtain ⟨h1⟩ := h
  have hthrow := C92_stops m.toolchain m.mainExecutable st.argGlobalAnalysis.value
    st.argClangChecker.value ⟨runningRules m st, m.takeoff⟩ m.db m.sources verbose v.mainFile (fresh m)
  have e1 := (hthrow _ _ _).2 ⟨rfl, _, h1, rfl⟩
  have hres := C92_result m.toolchain m.mainExecutable st.argGlobalAnalysis.value
    st.argClangChecker.value ⟨runningRules m st, m.takeoff⟩ m.db m.sources verbose v.mainFile (fresh m)
  rw [e1] at hres
  unfold analysis
  unfold fresh at hres
  rw [← hres]

theorem console_stages [DecidableEq κ] (m : Machine U σ κ) (v : Voices U) (cli : CommandLine)
    (st : OptionState) (hst : processOptions m.env cli = .ok st) :
    (∃ code k, mainConsole m v (some cli) = .ok (k, code) ∧
        Shows m v st cli.listEnabledRules cli.verbose code.toNat k) ∨
      (mainConsole m v (some cli) = .ub ∧ RulesLoad m st ∧
        (loadReporter m.listing m.reporterLibrary st.argReportType.value (reporterDir m.env) = .ub ∨
          (∃ r, loadReporter m.listing m.reporterLibrary st.argReportType.value
              (reporterDir m.env) = .ok r ∧ analysis m st = .ub) ∨
          ∃ r c out files,
            loadReporter m.listing m.reporterLibrary st.argReportType.value (reporterDir m.env) =
              .ok r ∧ analysis m st = .ok c ∧ m.report r (answers st c) = .ub ∧
              Placed m st cli.listEnabledRules (v.text r (answers st c)) out files)) := by
  rcases mainConsole_loading m v cli st hst with ⟨p, h1, h2⟩ | ⟨h1, h2⟩ | ⟨hl, ⟨p, h1, h2⟩ | ⟨h1, h2⟩ |
    ⟨h1, h1', h2⟩ | ⟨r, h1, h2⟩⟩
  · left; exact ⟨.RULE_NOT_FOUND, _, h2, .rules p h1⟩
  · left; exact ⟨.RULE_NOT_FOUND, _, h2, .noRules h1⟩
  · left; exact ⟨.REPORTER_NOT_FOUND, _, h2, .reporter p hl h1⟩
  · left; exact ⟨.REPORTER_NOT_FOUND, _, h2, .noReporter hl h1⟩
  · right
    refine ⟨h2, hl, Or.inl ?_⟩
    rcases loudReporter_cases m id st with ⟨q, h3, -⟩ | ⟨h3, -⟩ | ⟨-, -, -, h3⟩ | ⟨q, h3, -⟩
    · exact absurd h3 (h1 q).2
    · exact absurd h3 h1'
    · exact h3
    · exact absurd h3 (h1 q).1
  · rw [h2]
    have hr := (reporterAt_iff m st r).1 h1
    rcases loadedConsole_cases m v st cli r with ⟨w, log, h3, h4⟩ | ⟨h3, h4⟩ | ⟨c, log, h3, ha, hv, h4⟩
    · left; exact ⟨.ERROR_WHILE_PROCESSING, _, h4, .analysis r w log hl h1 h3⟩
    · right; exact ⟨h4, hl, Or.inr (Or.inl ⟨r, hr, h3⟩)⟩
    · rw [h4]
      rcases reportConsole_cases m v.text st cli.listEnabledRules r (answers st c) (preface m v) log with
        ⟨out, files, hp, hc⟩ | ⟨f, hp1, hp2, hp3, hc⟩ | ⟨w, hp1, hp2, hc⟩
      · rw [hc]
        cases hrep : m.report r (answers st c) with
        | ub =>
          right
          exact ⟨rfl, hl, Or.inr (Or.inr ⟨r, _, out, files, hr, ha, hrep, hp⟩)⟩
        | throws w =>
          left
          exact ⟨.ERROR_WHILE_REPORTING, _, rfl, .report r w out log files c hl h1 h3 hrep hp⟩
        | ok u =>
          left
          rcases handleExitConsole_cases m st c ⟨out, preface m v, log, files⟩ hv with
            ⟨h5, h6⟩ | ⟨h5, h6, h7⟩ | ⟨h5, h6, h7⟩
          · exact ⟨_, _, h6, .errors r out log files c hl h1 h3 hrep hp h5⟩
          · exact ⟨_, _, h7, .threshold r out log files c hl h1 h3 hrep hp h5 h6⟩
          · exact ⟨_, _, h7, .success r out log files c hl h1 h3 hrep hp h5 h6⟩
      · rw [hc]
        left
        exact ⟨.ERROR_WHILE_REPORTING, _, rfl, .closed r f log c hl h1 h3 hp1 hp2 hp3⟩
      · rw [hc]
        left
        exact ⟨.ERROR_WHILE_REPORTING, _, rfl, .unnamed r w log c hl h1 h3 hp1 hp2⟩

theorem placed_unique {m : Machine U σ κ} {st : OptionState} {asked : Bool} {t out out' : Str}
    {files files' : List (Str × Str)} (h : Placed m st asked t out files)
    (h' : Placed m st asked t out' files') : out = out' ∧ files = files' := by
  cases h with
  | screen h1 =>
    cases h' with
    | screen => exact ⟨rfl, rfl⟩
    | file _ h2 => exact absurd h1 h2
  | file f h1 h2 h3 =>
    cases h' with
    | screen h4 => exact absurd h4 h1
    | file f' _ h5 => rw [h2] at h5; cases h5; exact ⟨rfl, rfl⟩

theorem placed_reported {m : Machine U σ κ} {st : OptionState}
    {asked : Bool} {r t out : Str} {files : List (Str × Str)} {a : Answers}
    (hp : Placed m st asked t out files) : Reported m st r a = m.report r a := by
  unfold Reported
  cases hp with
  | screen h => rw [if_pos h]
  | file f h1 h2 h3 => rw [if_neg h1, h2]; simp only [h3, if_true]

theorem exits_of_shows {m : Machine U σ κ} {v : Voices U} {st : OptionState}
    {asked verbose : Bool} {n : Nat} {k : Console}
    (h : Shows m v st asked verbose n k) : Exits m st n := by
  cases h with
  | rules p hp => exact .rules (brokenRule_not_load hp)
  | noRules hn => exact .rules (noRules_not_load hn)
  | reporter p hl hp =>
    rcases loudReporter_cases m id st with ⟨q, h3, -, h4⟩ | ⟨h3, -⟩ | ⟨h3, -, -, -⟩ | ⟨q, h3, -⟩
    · exact .reporter _ hl h4
    · exact absurd h3 (decisive_not_all (brokenReporter_other hp))
    · exact absurd hp (h3 p).2
    · have := decisive_unique (brokenReporter_other hp) (reporterAt_other h3)
      subst this
      obtain ⟨_, _, _, _, h5⟩ := hp
      obtain ⟨_, _, _, _, h6⟩ := h3
      rw [h5] at h6; cases h6
  | noReporter hl hn =>
    rcases loudReporter_cases m id st with ⟨q, h3, -, h4⟩ | ⟨h3, -, h4⟩ | ⟨-, h3, -⟩ | ⟨q, h3, -⟩
    · exact .reporter _ hl h4
    · exact .reporter _ hl h4
    · exact absurd hn h3
    · exact absurd hn (decisive_not_all (reporterAt_other h3))
  | analysis r w log hl hr ha =>
    exact .analysis r w hl ((reporterAt_iff m st r).1 hr) (aborted_analysis ha)
  | closed r f log c hl hr ha h1 h2 h3 =>
    refine .report r [] c hl ((reporterAt_iff m st r).1 hr) ((analysed_iff m v st verbose c).1 ⟨_, ha⟩) ?_
    unfold Reported
    rw [if_neg h1, h2]
    simp only [h3, Bool.false_eq_true, if_false]
  | unnamed r w log c hl hr ha h1 h2 =>
    refine .report r [] c hl ((reporterAt_iff m st r).1 hr) ((analysed_iff m v st verbose c).1 ⟨_, ha⟩) ?_
    unfold Reported
    rw [if_neg (by rw [h1]; decide), h2]
  | report r w _ log _ c hl hr ha hp1 hp =>
    exact .report r w c hl ((reporterAt_iff m st r).1 hr) ((analysed_iff m v st verbose c).1 ⟨_, ha⟩)
      (by rw [placed_reported hp, hp1])
  | errors r _ log _ c hl hr ha hp1 hp he =>
    exact .errors r c hl ((reporterAt_iff m st r).1 hr) ((analysed_iff m v st verbose c).1 ⟨_, ha⟩)
      (by rw [placed_reported hp, hp1]) he
  | threshold r _ log _ c hl hr ha hp1 hp he hw =>
    exact .threshold r c hl ((reporterAt_iff m st r).1 hr) ((analysed_iff m v st verbose c).1 ⟨_, ha⟩)
      (by rw [placed_reported hp, hp1]) he hw
  | success r _ log _ c hl hr ha hp1 hp he hw =>
    exact .success r c hl ((reporterAt_iff m st r).1 hr) ((analysed_iff m v st verbose c).1 ⟨_, ha⟩)
      (by rw [placed_reported hp, hp1]) he hw

/-- With something reported there is one reporter, one analysis and one text. -/
theorem reported_unique {m : Machine U σ κ} {v : Voices U} {st : OptionState}
    {verbose : Bool} {r r' log log' : Str} {c c' : ResultCollector} (h1 : ReporterAt m st r)
    (h2 : ReporterAt m st r') (h3 : Analysed m v st verbose c log)
    (h4 : Analysed m v st verbose c' log') : r = r' ∧ c = c' ∧ log = log' :=
  ⟨decisive_unique (reporterAt_other h1) (reporterAt_other h2), analysed_unique h3 h4⟩

theorem placed_open {m : Machine U σ κ} {st : OptionState} {asked : Bool} {t out : Str}
    {files : List (Str × Str)} (h : Placed m st asked t out files) :
    (∀ f, st.argOutput.value ≠ "-".toList → outputPath st = .ok f → m.canOpen f ≠ false) ∧
      ∀ w, st.argOutput.value = [] → outputPath st ≠ .throws w := by
  cases h with
  | screen h => exact ⟨fun f h1 => absurd h h1, fun w h1 => by rw [h1] at h; exact absurd h (by decide)⟩
  | file f h1 h2 h3 =>
    refine ⟨fun f' _ h4 h5 => ?_, fun w _ h4 => ?_⟩
    · rw [h2] at h4; cases h4; rw [h3] at h5; cases h5
    · rw [h2] at h4; cases h4

/-- The specification admits one result. -/
theorem shows_unique {m : Machine U σ κ} {v : Voices U} {st : OptionState} {asked verbose : Bool}
    {n : Nat} {k k' : Console} (h : Shows m v st asked verbose n k)
    (h' : Shows m v st asked verbose n k') : k = k' := by
  cases h with
  | rules p hp =>
    cases h' with
    | rules q hq => rw [brokenRule_unique hp hq]
    | noRules hn => exact absurd hn (brokenRule_not_none hp)
  | noRules hn =>
    cases h' with
    | rules q hq => exact absurd hn (brokenRule_not_none hq)
    | noRules => rfl
  | reporter p hl hp =>
    cases h' with
    | reporter q _ hq => rw [decisive_unique (brokenReporter_other hp) (brokenReporter_other hq)]
    | noReporter _ hq => exact absurd hq (decisive_not_all (brokenReporter_other hp))
  | noReporter hl hn =>
    cases h' with
    | reporter q _ hq => exact absurd hn (decisive_not_all (brokenReporter_other hq))
    | noReporter => rfl
  | analysis r w log hl hr ha =>
    cases h' with
    | analysis r' w' log' _ _ ha' => obtain ⟨rfl, rfl⟩ := aborted_unique ha ha'; rfl
  | closed r f log c hl hr ha h1 h2 h3 =>
    cases h' with
    | closed r' f' log' c' _ hr' ha' h1' h2' h3' =>
      obtain ⟨rfl, rfl, rfl⟩ := reported_unique hr hr' ha ha'
      rw [h2] at h2'; cases h2'; rfl
    | unnamed r' w' log' c' _ hr' ha' h1' h2' => rw [h2] at h2'; cases h2'
    | report r' w' out' log' files' c' _ hr' ha' hrep' hp' =>
      exact absurd h3 ((placed_open hp').1 f h1 h2)
  | unnamed r w log c hl hr ha h1 h2 =>
    cases h' with
    | closed r' f' log' c' _ hr' ha' h1' h2' h3' => rw [h2] at h2'; cases h2'
    | unnamed r' w' log' c' _ hr' ha' h1' h2' =>
      obtain ⟨rfl, rfl, rfl⟩ := reported_unique hr hr' ha ha'
      rw [h2] at h2'; cases h2'; rfl
    | report r' w' out' log' files' c' _ hr' ha' hrep' hp' =>
      exact absurd h2 ((placed_open hp').2 w h1)
  | report r w out log files c hl hr ha hrep hp =>
    cases h' with
    | closed r' f' log' c' _ hr' ha' h1' h2' h3' => exact absurd h3' ((placed_open hp).1 f' h1' h2')
    | unnamed r' w' log' c' _ hr' ha' h1' h2' => exact absurd h2' ((placed_open hp).2 w' h1')
    | report r' w' out' log' files' c' _ hr' ha' hrep' hp' =>
      obtain ⟨rfl, rfl, rfl⟩ := reported_unique hr hr' ha ha'
      obtain ⟨rfl, rfl⟩ := placed_unique hp hp'
      rw [hrep] at hrep'; cases hrep'; rfl
  | errors r out log files c hl hr ha hrep hp he =>
    cases h' with
    | errors r' out' log' files' c' _ hr' ha' hrep' hp' he' =>
      obtain ⟨rfl, rfl, rfl⟩ := reported_unique hr hr' ha ha'
      obtain ⟨rfl, rfl⟩ := placed_unique hp hp'
      rfl
  | threshold r out log files c hl hr ha hrep hp he hw =>
    cases h' with
    | threshold r' out' log' files' c' _ hr' ha' hrep' hp' he' =>
      obtain ⟨rfl, rfl, rfl⟩ := reported_unique hr hr' ha ha'
      obtain ⟨rfl, rfl⟩ := placed_unique hp hp'
      rfl
  | success r out log files c hl hr ha hrep hp he hw =>
    cases h' with
    | success r' out' log' files' c' _ hr' ha' hrep' hp' he' =>
      obtain ⟨rfl, rfl, rfl⟩ := reported_unique hr hr' ha ha'
      obtain ⟨rfl, rfl⟩ := placed_unique hp hp'
      rfl

theorem toNat_inj {a b : ExitCode} (h : a.toNat = b.toNat) : a = b := by
  revert h
  cases a <;> cases b <;> simp [ExitCode.toNat]

/-- Where the program has no defined result, it has no exit code either. -/
theorem exits_defined {m : Machine U σ κ} {v : Voices U} {st : OptionState} {asked : Bool} {n : Nat}
    (h : Exits m st n)
    (h3 : loadReporter m.listing m.reporterLibrary st.argReportType.value (reporterDir m.env) = .ub ∨
      (∃ r, loadReporter m.listing m.reporterLibrary st.argReportType.value
          (reporterDir m.env) = .ok r ∧ analysis m st = .ub) ∨
      ∃ r c out files,
        loadReporter m.listing m.reporterLibrary st.argReportType.value (reporterDir m.env) =
          .ok r ∧ analysis m st = .ok c ∧ m.report r (answers st c) = .ub ∧
          Placed m st asked (v.text r (answers st c)) out files) (hl : RulesLoad m st) : False := by
  rcases h3 with h3 | ⟨r, h3, h4⟩ | ⟨r, c, out, files, h3, h4, h5, h6⟩
  · cases h <;> simp_all
  · cases h <;> simp_all
  · have h7 := placed_reported (r := r) (a := answers st c) h6
    rw [h5] at h7
    cases h <;> simp_all

/-- The program ends with an exit code and writes certain texts exactly if the specification says
so. -/
theorem C89_console [DecidableEq κ] (m : Machine U σ κ) (v : Voices U) (cli : CommandLine)
    (st : OptionState) (hst : processOptions m.env cli = .ok st) (code : ExitCode) (k : Console) :
    mainConsole m v (some cli) = .ok (k, code) ↔
      Shows m v st cli.listEnabledRules cli.verbose code.toNat k := by
  constructor
  · intro h
    rcases console_stages m v cli st hst with ⟨code', k', h1, h2⟩ | ⟨h1, -⟩
    · rw [h] at h1
      cases h1
      exact h2
    · rw [h] at h1; cases h1
  · intro h
    rcases console_stages m v cli st hst with ⟨code', k', h1, h2⟩ | ⟨-, hl, h3⟩
    · have hc := toNat_inj (C17_exit_code_unique m st _ _ (exits_of_shows h) (exits_of_shows h2))
      subst hc
      rw [h1, shows_unique h h2]
    · exact absurd hl fun hl => exits_defined (exits_of_shows h) h3 hl

/-- A command line that clang's parser does not accept. -/
theorem C89_rejected [DecidableEq κ] (m : Machine U σ κ) (v : Voices U) :
    mainConsole m v none =
      .ok (⟨[], v.parserError, [], []⟩, .COMMON_OPTIONS_PARSER_ERRORS) := rfl

/-- Writing does not change the exit code. -/
theorem C89_exit [DecidableEq κ] (m : Machine U σ κ) (v : Voices U)
    (cli : Option CommandLine) (code : ExitCode) :
    (∃ k, mainConsole m v cli = .ok (k, code)) ↔ mainProgram m cli = .ok code := by
  cases cli with
  | none =>
    constructor
    · rintro ⟨k, h⟩; cases h; rfl
    · intro h; cases h; exact ⟨_, rfl⟩
  | some cli =>
    cases hst : processOptions m.env cli with
    | ub => simp [mainConsole, mainProgram, hst]
    | throws w => simp [mainConsole, mainProgram, hst]
    | ok st =>
      rw [C17_exit_code m cli st hst]
      constructor
      · rintro ⟨k, h⟩
        exact exits_of_shows ((C89_console m v cli st hst code k).1 h)
      · intro h
        rcases console_stages m v cli st hst with ⟨code', k', h1, h2⟩ | ⟨h1, hl, h3⟩
        · have := C17_exit_code_unique m st _ _ h (exits_of_shows h2)
          rw [toNat_inj this]
          exact ⟨_, h1⟩
        · exact absurd hl fun hl => exits_defined h h3 hl

/-- Standard error has a complaint exactly for the exit codes 1 to 5, at the end. -/
theorem C89_complaint [DecidableEq κ] (m : Machine U σ κ) (v : Voices U) (cli : CommandLine)
    (st : OptionState) (hst : processOptions m.env cli = .ok st) (code : ExitCode) (k : Console)
    (h : mainConsole m v (some cli) = .ok (k, code)) :
    (code.toNat = 0 ∨ code.toNat = 6) ∧
        k.err = v.configErrors ++ skipLines m.toolchain m.db m.sources ∨
      (code.toNat = 1 ∨ code.toNat = 2) ∧
        (∃ w, k.err = v.configErrors ++ ("\noclint: error: ".toList ++ w ++ "\n".toList) ∨
          ∃ p, k.err = v.configErrors ++
            (v.dlerror p ++ "\n".toList ++ ("\noclint: error: ".toList ++ w ++ "\n".toList))) ∨
      (code.toNat = 3 ∨ code.toNat = 4) ∧
        (∃ w, k.err = v.configErrors ++ skipLines m.toolchain m.db m.sources ++
          ("\noclint: error: ".toList ++ w ++ "\n".toList)) ∨
      code.toNat = 5 ∧
        ∃ vs, k.err = v.configErrors ++ skipLines m.toolchain m.db m.sources ++
          ("\noclint: error: violations exceed threshold\n".toList ++ countsText m st vs) := by
  have h := (C89_console m v cli st hst code k).1 h
  generalize code.toNat = n at h ⊢
  cases h with
  | rules p hp => exact .inr (.inl ⟨.inl rfl, _, .inr ⟨p, rfl⟩⟩)
  | noRules hn => exact .inr (.inl ⟨.inl rfl, _, .inl rfl⟩)
  | reporter p hl hp => exact .inr (.inl ⟨.inr rfl, _, .inr ⟨p, rfl⟩⟩)
  | noReporter hl hn => exact .inr (.inl ⟨.inr rfl, _, .inl rfl⟩)
  | analysis r w log hl hr ha => exact .inr (.inr (.inl ⟨.inl rfl, w, rfl⟩))
  | closed r f log c hl hr ha h1 h2 h3 => exact .inr (.inr (.inl ⟨.inr rfl, _, rfl⟩))
  | unnamed r w log c hl hr ha h1 h2 => exact .inr (.inr (.inl ⟨.inr rfl, _, rfl⟩))
  | report r w _ log _ c hl hr ha hp1 hp => exact .inr (.inr (.inl ⟨.inr rfl, _, rfl⟩))
  | errors r _ log _ c hl hr ha hp1 hp he => exact .inl ⟨.inr rfl, rfl⟩
  | threshold r _ log _ c hl hr ha hp1 hp he hw =>
    refine .inr (.inr (.inr ⟨rfl, answers st c .violations, ?_⟩))
    have e : complaint "violations exceed threshold".toList =
        "\noclint: error: violations exceed threshold\n".toList := by decide +kernel
    rw [e]
    rfl
  | success r _ log _ c hl hr ha hp1 hp he hw => exact .inl ⟨.inl rfl, rfl⟩

/-- A report on standard output is alone there if the rules are not listed; a report in a file leaves
standard output to the list. -/
theorem C89_report [DecidableEq κ] (m : Machine U σ κ) (v : Voices U) (cli : CommandLine)
    (st : OptionState) (hst : processOptions m.env cli = .ok st) (code : ExitCode) (k : Console)
    (h : mainConsole m v (some cli) = .ok (k, code))
    (hcode : code.toNat = 0 ∨ code.toNat = 5 ∨ code.toNat = 6) :
    ∃ r a, m.report r a = .ok () ∧
      ((st.argOutput.value = "-".toList ∧ k.files = [] ∧
          k.out = listing m st cli.listEnabledRules ++ v.text r a) ∨
        (st.argOutput.value ≠ "-".toList ∧ k.out = listing m st cli.listEnabledRules ∧
          ∃ f, outputPath st = .ok f ∧ k.files = [(f, v.text r a)])) := by
  have h := (C89_console m v cli st hst code k).1 h
  generalize code.toNat = n at h hcode
  have hp : ∀ {t out : Str} {files : List (Str × Str)}, Placed m st cli.listEnabledRules t out files →
      ((st.argOutput.value = "-".toList ∧ files = [] ∧ out = listing m st cli.listEnabledRules ++ t) ∨
        (st.argOutput.value ≠ "-".toList ∧ out = listing m st cli.listEnabledRules ∧
          ∃ f, outputPath st = .ok f ∧ files = [(f, t)])) := by
    intro t out files hp
    cases hp with
    | screen h' => exact .inl ⟨h', rfl, rfl⟩
    | file f h1 h2 h3 => exact .inr ⟨h1, rfl, f, h2, rfl⟩
  cases h with
  | errors r _ log _ c hl hr ha hp1 hp' he => exact ⟨r, _, hp1, hp hp'⟩
  | threshold r _ log _ c hl hr ha hp1 hp' he hw => exact ⟨r, _, hp1, hp hp'⟩
  | success r _ log _ c hl hr ha hp1 hp' he hw => exact ⟨r, _, hp1, hp hp'⟩
  | _ => omega

/-- Without `-verbose` nothing is written through `llvm::outs()`. -/
theorem C89_quiet [DecidableEq κ] (m : Machine U σ κ) (v : Voices U) (cli : CommandLine)
    (st : OptionState) (hst : processOptions m.env cli = .ok st) (code : ExitCode) (k : Console)
    (h : mainConsole m v (some cli) = .ok (k, code)) (hv : cli.verbose = false) : k.log = [] := by
  have h := (C89_console m v cli st hst code k).1 h
  rw [hv] at h
  have h1 : ∀ {c : ResultCollector} {log : Str}, Analysed m v st false c log → log = [] := by
    rintro c log ⟨h⟩; rfl
  have h2 : ∀ {w log : Str}, Aborted m v st false w log → log = [] := by
    rintro w log ⟨h⟩; rfl
  generalize code.toNat = n at h
  cases h with
  | analysis r w log hl hr ha => exact h2 ha
  | closed r f log c hl hr ha => exact h1 ha
  | unnamed r w log c hl hr ha => exact h1 ha
  | report r w _ log _ c hl hr ha => exact h1 ha
  | errors r _ log _ c hl hr ha => exact h1 ha
  | threshold r _ log _ c hl hr ha => exact h1 ha
  | success r _ log _ c hl hr ha => exact h1 ha
  | _ => rfl

/-- The voices of the examples. -/
def exVoices : Voices Unit where
  parserError := "no such option".toList
  configErrors := []
  dlerror := fun p => p ++ ": file too short".toList
  mainFile := fun _ => "/work/a.c".toList
  text := fun _ a => toStringInt (a .violations).length

/-- The rule list, the report and the message about too many violations. -/
example : mainConsole (exMachine 11 false) exVoices (some { listEnabledRules := true }) =
      .ok (⟨"Enabled rules:\n- MyRule\n\n11".toList,
        "\noclint: error: violations exceed threshold\nP1=0[0] P2=11[10] P3=0[20] \n".toList, [], []⟩,
        .VIOLATIONS_EXCEED_THRESHOLD) := by decide +kernel

/-- The same with `-verbose`. -/
example : mainConsole (exMachine 1 false) exVoices (some { verbose := true }) =
      .ok (⟨"1".toList, [], "Compiling a.c ...\n - Success\nAnalyzing /work/a.c - Done\n".toList, []⟩,
        .SUCCESS) := by decide +kernel

/-- A plugin that does not open. -/
example : mainConsole { exMachine 1 false with ruleLibrary := fun _ => none } exVoices
    (some { listEnabledRules := true }) =
      .ok (⟨[], ("/b/../lib/oclint/rules/r: file too short\n\noclint: error: ".toList ++
        "cannot open dynamic library: /b/../lib/oclint/rules/r\n".toList), [], []⟩,
        .RULE_NOT_FOUND) := by decide +kernel

end Oclint
